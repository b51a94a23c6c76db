import Verif.Protocol.Conform.LeaderAndIsr
/-!
Generated by tools/gen_protocol.py: the LeaderAndIsr request is read as the protocol says.
-/
namespace Kafka.Msg

open Protocol

/-- What `LeaderAndIsrPartitionState4` holds after reading the value `x` into `t0`. -/
def LeaderAndIsrPartitionState4.of (v : Int16) (x : Val) (t0 : LeaderAndIsrPartitionState4) : LeaderAndIsrPartitionState4 :=
  { TopicName := if v ≥ 0 ∧ v ≤ 1 then (x.get "TopicName").toStr else t0.TopicName,
    PartitionIndex := (x.get "PartitionIndex").toInt32,
    ControllerEpoch := (x.get "ControllerEpoch").toInt32,
    Leader := (x.get "Leader").toInt32,
    LeaderEpoch := (x.get "LeaderEpoch").toInt32,
    Isr := (x.get "Isr").toSlice Val.toInt32,
    ZkVersion := (x.get "ZkVersion").toInt32,
    Replicas := (x.get "Replicas").toSlice Val.toInt32,
    AddingReplicas := if v ≥ 3 then (x.get "AddingReplicas").toSlice Val.toInt32 else t0.AddingReplicas,
    RemovingReplicas := if v ≥ 3 then (x.get "RemovingReplicas").toSlice Val.toInt32 else t0.RemovingReplicas,
    IsNew := if v ≥ 1 then (x.get "IsNew").toBool else t0.IsNew }

theorem LeaderAndIsrPartitionState4.decodes {v : Int16} (hv : 0 ≤ v) (x : Val) (h : Protocol.LeaderAndIsrPartitionState.Valid false v x) (t0 : LeaderAndIsrPartitionState4) :
    Reads (LeaderAndIsrPartitionState4.decode v t0) (Protocol.LeaderAndIsrPartitionState.wire false v x) (LeaderAndIsrPartitionState4.of v x t0) :=
  Reads.congr (((Step.optField (c := v ≥ 0 ∧ v ≤ 1) (set := fun (t : LeaderAndIsrPartitionState4) x => { t with TopicName := x }) (·.TopicName) (fun _ => rfl) fun hc => read_string (Fields.Valid.head (h) hc))
      |>.andThen (Step.field (set := fun (t : LeaderAndIsrPartitionState4) x => { t with PartitionIndex := x }) (read_int32 (Fields.Valid.head (Fields.Valid.tail h) hv)))
      |>.andThen (Step.field (set := fun (t : LeaderAndIsrPartitionState4) x => { t with ControllerEpoch := x }) (read_int32 (Fields.Valid.head (Fields.Valid.tail (Fields.Valid.tail h)) hv)))
      |>.andThen (Step.field (set := fun (t : LeaderAndIsrPartitionState4) x => { t with Leader := x }) (read_int32 (Fields.Valid.head (Fields.Valid.tail (Fields.Valid.tail (Fields.Valid.tail h))) hv)))
      |>.andThen (Step.field (set := fun (t : LeaderAndIsrPartitionState4) x => { t with LeaderEpoch := x }) (read_int32 (Fields.Valid.head (Fields.Valid.tail (Fields.Valid.tail (Fields.Valid.tail (Fields.Valid.tail h)))) hv)))
      |>.andThen (Step.field (set := fun (t : LeaderAndIsrPartitionState4) x => { t with Isr := x }) (read_int32Array (Fields.Valid.head (Fields.Valid.tail (Fields.Valid.tail (Fields.Valid.tail (Fields.Valid.tail (Fields.Valid.tail h))))) hv)))
      |>.andThen (Step.field (set := fun (t : LeaderAndIsrPartitionState4) x => { t with ZkVersion := x }) (read_int32 (Fields.Valid.head (Fields.Valid.tail (Fields.Valid.tail (Fields.Valid.tail (Fields.Valid.tail (Fields.Valid.tail (Fields.Valid.tail h)))))) hv)))
      |>.andThen (Step.field (set := fun (t : LeaderAndIsrPartitionState4) x => { t with Replicas := x }) (read_int32Array (Fields.Valid.head (Fields.Valid.tail (Fields.Valid.tail (Fields.Valid.tail (Fields.Valid.tail (Fields.Valid.tail (Fields.Valid.tail (Fields.Valid.tail h))))))) hv)))
      |>.andThen (Step.optField (c := v ≥ 3) (set := fun (t : LeaderAndIsrPartitionState4) x => { t with AddingReplicas := x }) (·.AddingReplicas) (fun _ => rfl) fun hc => read_int32Array (Fields.Valid.head (Fields.Valid.tail (Fields.Valid.tail (Fields.Valid.tail (Fields.Valid.tail (Fields.Valid.tail (Fields.Valid.tail (Fields.Valid.tail (Fields.Valid.tail h)))))))) hc))
      |>.andThen (Step.optField (c := v ≥ 3) (set := fun (t : LeaderAndIsrPartitionState4) x => { t with RemovingReplicas := x }) (·.RemovingReplicas) (fun _ => rfl) fun hc => read_int32Array (Fields.Valid.head (Fields.Valid.tail (Fields.Valid.tail (Fields.Valid.tail (Fields.Valid.tail (Fields.Valid.tail (Fields.Valid.tail (Fields.Valid.tail (Fields.Valid.tail (Fields.Valid.tail h))))))))) hc))
      |>.andThen (Step.optField (c := v ≥ 1) (set := fun (t : LeaderAndIsrPartitionState4) x => { t with IsNew := x }) (·.IsNew) (fun _ => rfl) fun hc => read_bool (Fields.Valid.head (Fields.Valid.tail (Fields.Valid.tail (Fields.Valid.tail (Fields.Valid.tail (Fields.Valid.tail (Fields.Valid.tail (Fields.Valid.tail (Fields.Valid.tail (Fields.Valid.tail (Fields.Valid.tail h)))))))))) hc)) : Step _ _ _) t0)
    (Writes.eq (fs := Protocol.LeaderAndIsrPartitionState) (v := v) (x := x) <| Writes.between rfl <| Writes.all hv rfl <| Writes.all hv rfl <| Writes.all hv rfl <| Writes.all hv rfl <| Writes.all hv rfl <| Writes.all hv rfl <| Writes.all hv rfl <| Writes.since rfl <| Writes.since rfl <| Writes.since rfl <| Writes.done).symm rfl

theorem LeaderAndIsrPartitionState4.parses {v : Int16} (hv : 0 ≤ v) (t0 : LeaderAndIsrPartitionState4) :
    Parses (LeaderAndIsrPartitionState4.decode v t0) ((Ty.struct Protocol.LeaderAndIsrPartitionState).parse v) (fun x => LeaderAndIsrPartitionState4.of v x t0) :=
  FParses.parses (fs := Protocol.LeaderAndIsrPartitionState)
    (FParses.optField (c := v ≥ 0 ∧ v ≤ 1) Iff.rfl (set := fun (t : LeaderAndIsrPartitionState4) x => { t with TopicName := x }) (·.TopicName) (fun _ => rfl) par_string <|
    FParses.field hv (set := fun (t : LeaderAndIsrPartitionState4) x => { t with PartitionIndex := x }) par_int32 <|
    FParses.field hv (set := fun (t : LeaderAndIsrPartitionState4) x => { t with ControllerEpoch := x }) par_int32 <|
    FParses.field hv (set := fun (t : LeaderAndIsrPartitionState4) x => { t with Leader := x }) par_int32 <|
    FParses.field hv (set := fun (t : LeaderAndIsrPartitionState4) x => { t with LeaderEpoch := x }) par_int32 <|
    FParses.field hv (set := fun (t : LeaderAndIsrPartitionState4) x => { t with Isr := x }) par_int32Array <|
    FParses.field hv (set := fun (t : LeaderAndIsrPartitionState4) x => { t with ZkVersion := x }) par_int32 <|
    FParses.field hv (set := fun (t : LeaderAndIsrPartitionState4) x => { t with Replicas := x }) par_int32Array <|
    FParses.optField (c := v ≥ 3) Iff.rfl (set := fun (t : LeaderAndIsrPartitionState4) x => { t with AddingReplicas := x }) (·.AddingReplicas) (fun _ => rfl) par_int32Array <|
    FParses.optField (c := v ≥ 3) Iff.rfl (set := fun (t : LeaderAndIsrPartitionState4) x => { t with RemovingReplicas := x }) (·.RemovingReplicas) (fun _ => rfl) par_int32Array <|
    FParses.optField (c := v ≥ 1) Iff.rfl (set := fun (t : LeaderAndIsrPartitionState4) x => { t with IsNew := x }) (·.IsNew) (fun _ => rfl) par_bool <|
    FParses.done)
    (by simp only [LeaderAndIsrPartitionState4.decode, Dec.andThen_assoc, Dec.andThen_nop]) (Fields.distinct_nodup _ (by decide +kernel)) (fun _ _ => rfl) t0

theorem LeaderAndIsrPartitionState4.shown {v : Int16} (hv : 0 ≤ v) (x : Val) (h : Protocol.LeaderAndIsrPartitionState.Typed v x) :
    Protocol.LeaderAndIsrPartitionState.shows v x (LeaderAndIsrPartitionState4.val (LeaderAndIsrPartitionState4.of v x {})) = true :=
  Shows.between (fun s => .str (some s)) rfl (fun hc => show_string (Fields.Typed.head (h) hc)) rfl <|
    Shows.all hv (show_int32 (Fields.Typed.head (Fields.Typed.tail h) hv)) <|
    Shows.all hv (show_int32 (Fields.Typed.head (Fields.Typed.tail (Fields.Typed.tail h)) hv)) <|
    Shows.all hv (show_int32 (Fields.Typed.head (Fields.Typed.tail (Fields.Typed.tail (Fields.Typed.tail h))) hv)) <|
    Shows.all hv (show_int32 (Fields.Typed.head (Fields.Typed.tail (Fields.Typed.tail (Fields.Typed.tail (Fields.Typed.tail h)))) hv)) <|
    Shows.all hv (show_int32Array (Fields.Typed.head (Fields.Typed.tail (Fields.Typed.tail (Fields.Typed.tail (Fields.Typed.tail (Fields.Typed.tail h))))) hv)) <|
    Shows.all hv (show_int32 (Fields.Typed.head (Fields.Typed.tail (Fields.Typed.tail (Fields.Typed.tail (Fields.Typed.tail (Fields.Typed.tail (Fields.Typed.tail h)))))) hv)) <|
    Shows.all hv (show_int32Array (Fields.Typed.head (Fields.Typed.tail (Fields.Typed.tail (Fields.Typed.tail (Fields.Typed.tail (Fields.Typed.tail (Fields.Typed.tail (Fields.Typed.tail h))))))) hv)) <|
    Shows.since (ofScalars .int32) rfl (fun hc => show_int32Array (Fields.Typed.head (Fields.Typed.tail (Fields.Typed.tail (Fields.Typed.tail (Fields.Typed.tail (Fields.Typed.tail (Fields.Typed.tail (Fields.Typed.tail (Fields.Typed.tail h)))))))) hc)) rfl <|
    Shows.since (ofScalars .int32) rfl (fun hc => show_int32Array (Fields.Typed.head (Fields.Typed.tail (Fields.Typed.tail (Fields.Typed.tail (Fields.Typed.tail (Fields.Typed.tail (Fields.Typed.tail (Fields.Typed.tail (Fields.Typed.tail (Fields.Typed.tail h))))))))) hc)) rfl <|
    Shows.since (.bool) rfl (fun hc => show_bool (Fields.Typed.head (Fields.Typed.tail (Fields.Typed.tail (Fields.Typed.tail (Fields.Typed.tail (Fields.Typed.tail (Fields.Typed.tail (Fields.Typed.tail (Fields.Typed.tail (Fields.Typed.tail (Fields.Typed.tail h)))))))))) hc)) rfl <|
    rfl

/-- What `LeaderAndIsrTopicState4` holds after reading the value `x` into `t0`. -/
def LeaderAndIsrTopicState4.of (v : Int16) (x : Val) (t0 : LeaderAndIsrTopicState4) : LeaderAndIsrTopicState4 :=
  { TopicName := if v ≥ 2 then (x.get "TopicName").toStr else t0.TopicName,
    PartitionStates := if v ≥ 2 then (x.get "PartitionStates").toSliceOr (fun y => LeaderAndIsrPartitionState4.of v y {}) t0.PartitionStates else t0.PartitionStates }

theorem LeaderAndIsrTopicState4.decodes {v : Int16} (hv : 0 ≤ v) (x : Val) (h : Protocol.LeaderAndIsrTopicState.Valid false v x) (t0 : LeaderAndIsrTopicState4) :
    Reads (LeaderAndIsrTopicState4.decode v t0) (Protocol.LeaderAndIsrTopicState.wire false v x) (LeaderAndIsrTopicState4.of v x t0) :=
  Reads.congr (((Step.optField (c := v ≥ 2) (set := fun (t : LeaderAndIsrTopicState4) x => { t with TopicName := x }) (·.TopicName) (fun _ => rfl) fun hc => read_string (Fields.Valid.head (h) hc))
      |>.andThen (Step.readOptStructs (c := v ≥ 2) (get := fun (t : LeaderAndIsrTopicState4) => t.PartitionStates) (set := fun (t : LeaderAndIsrTopicState4) x => { t with PartitionStates := x }) (fun _ => rfl) (fun y hy => LeaderAndIsrPartitionState4.decodes hv y hy {}) fun hc => Fields.Valid.head (Fields.Valid.tail h) hc) : Step _ _ _) t0)
    (Writes.eq (fs := Protocol.LeaderAndIsrTopicState) (v := v) (x := x) <| Writes.since rfl <| Writes.since rfl <| Writes.done).symm rfl

theorem LeaderAndIsrTopicState4.parses {v : Int16} (hv : 0 ≤ v) (t0 : LeaderAndIsrTopicState4) :
    Parses (LeaderAndIsrTopicState4.decode v t0) ((Ty.struct Protocol.LeaderAndIsrTopicState).parse v) (fun x => LeaderAndIsrTopicState4.of v x t0) :=
  FParses.parses (fs := Protocol.LeaderAndIsrTopicState)
    (FParses.optField (c := v ≥ 2) Iff.rfl (set := fun (t : LeaderAndIsrTopicState4) x => { t with TopicName := x }) (·.TopicName) (fun _ => rfl) par_string <|
    FParses.optStructs (c := v ≥ 2) Iff.rfl (get := fun (t : LeaderAndIsrTopicState4) => t.PartitionStates) (set := fun (t : LeaderAndIsrTopicState4) x => { t with PartitionStates := x }) (fun _ => rfl) (LeaderAndIsrPartitionState4.parses hv {}) <|
    FParses.done)
    (by simp only [LeaderAndIsrTopicState4.decode, Dec.andThen_nop]) (Fields.distinct_nodup _ (by decide +kernel)) (fun _ _ => rfl) t0

theorem LeaderAndIsrTopicState4.shown {v : Int16} (hv : 0 ≤ v) (x : Val) (h : Protocol.LeaderAndIsrTopicState.Typed v x) :
    Protocol.LeaderAndIsrTopicState.shows v x (LeaderAndIsrTopicState4.val (LeaderAndIsrTopicState4.of v x {})) = true :=
  Shows.since (fun s => .str (some s)) rfl (fun hc => show_string (Fields.Typed.head (h) hc)) rfl <|
    Shows.since (ofStructs LeaderAndIsrPartitionState4.val) rfl (fun hc => show_structs (f := LeaderAndIsrPartitionState4.val) (g := fun y => LeaderAndIsrPartitionState4.of v y {}) (fun y hy => LeaderAndIsrPartitionState4.shown hv y hy) (Fields.Typed.head (Fields.Typed.tail h) hc)) rfl <|
    rfl

/-- What `LeaderAndIsrLiveLeader4` holds after reading the value `x` into `t0`. -/
def LeaderAndIsrLiveLeader4.of (_v : Int16) (x : Val) (_t0 : LeaderAndIsrLiveLeader4) : LeaderAndIsrLiveLeader4 :=
  { BrokerId := (x.get "BrokerId").toInt32,
    HostName := (x.get "HostName").toStr,
    Port := (x.get "Port").toInt32 }

theorem LeaderAndIsrLiveLeader4.decodes {v : Int16} (hv : 0 ≤ v) (x : Val) (h : Protocol.LeaderAndIsrLiveLeader.Valid false v x) (t0 : LeaderAndIsrLiveLeader4) :
    Reads (LeaderAndIsrLiveLeader4.decode v t0) (Protocol.LeaderAndIsrLiveLeader.wire false v x) (LeaderAndIsrLiveLeader4.of v x t0) :=
  Reads.congr (((Step.field (set := fun (t : LeaderAndIsrLiveLeader4) x => { t with BrokerId := x }) (read_int32 (Fields.Valid.head (h) hv)))
      |>.andThen (Step.field (set := fun (t : LeaderAndIsrLiveLeader4) x => { t with HostName := x }) (read_string (Fields.Valid.head (Fields.Valid.tail h) hv)))
      |>.andThen (Step.field (set := fun (t : LeaderAndIsrLiveLeader4) x => { t with Port := x }) (read_int32 (Fields.Valid.head (Fields.Valid.tail (Fields.Valid.tail h)) hv))) : Step _ _ _) t0)
    (Writes.eq (fs := Protocol.LeaderAndIsrLiveLeader) (v := v) (x := x) <| Writes.all hv rfl <| Writes.all hv rfl <| Writes.all hv rfl <| Writes.done).symm rfl

theorem LeaderAndIsrLiveLeader4.parses {v : Int16} (hv : 0 ≤ v) (t0 : LeaderAndIsrLiveLeader4) :
    Parses (LeaderAndIsrLiveLeader4.decode v t0) ((Ty.struct Protocol.LeaderAndIsrLiveLeader).parse v) (fun x => LeaderAndIsrLiveLeader4.of v x t0) :=
  FParses.parses (fs := Protocol.LeaderAndIsrLiveLeader)
    (FParses.field hv (set := fun (t : LeaderAndIsrLiveLeader4) x => { t with BrokerId := x }) par_int32 <|
    FParses.field hv (set := fun (t : LeaderAndIsrLiveLeader4) x => { t with HostName := x }) par_string <|
    FParses.field hv (set := fun (t : LeaderAndIsrLiveLeader4) x => { t with Port := x }) par_int32 <|
    FParses.done)
    (by simp only [LeaderAndIsrLiveLeader4.decode, Dec.andThen_assoc, Dec.andThen_nop]) (Fields.distinct_nodup _ (by decide +kernel)) (fun _ _ => rfl) t0

theorem LeaderAndIsrLiveLeader4.shown {v : Int16} (hv : 0 ≤ v) (x : Val) (h : Protocol.LeaderAndIsrLiveLeader.Typed v x) :
    Protocol.LeaderAndIsrLiveLeader.shows v x (LeaderAndIsrLiveLeader4.val (LeaderAndIsrLiveLeader4.of v x {})) = true :=
  Shows.all hv (show_int32 (Fields.Typed.head (h) hv)) <|
    Shows.all hv (show_string (Fields.Typed.head (Fields.Typed.tail h) hv)) <|
    Shows.all hv (show_int32 (Fields.Typed.head (Fields.Typed.tail (Fields.Typed.tail h)) hv)) <|
    rfl

/-- What `LeaderAndIsrRequest` holds after reading the value `x` into `t0`. -/
def LeaderAndIsrRequest.of (v : Int16) (x : Val) (t0 : LeaderAndIsrRequest) : LeaderAndIsrRequest :=
  { ControllerId := (x.get "ControllerId").toInt32,
    ControllerEpoch := (x.get "ControllerEpoch").toInt32,
    BrokerEpoch := if v ≥ 2 then (x.get "BrokerEpoch").toInt64 else t0.BrokerEpoch,
    UngroupedPartitionStates := if v ≥ 0 ∧ v ≤ 1 then (x.get "UngroupedPartitionStates").toSliceOr (fun y => LeaderAndIsrPartitionState4.of v y {}) t0.UngroupedPartitionStates else t0.UngroupedPartitionStates,
    TopicStates := if v ≥ 2 then (x.get "TopicStates").toSliceOr (fun y => LeaderAndIsrTopicState4.of v y {}) t0.TopicStates else t0.TopicStates,
    LiveLeaders := (x.get "LiveLeaders").toSliceOr (fun y => LeaderAndIsrLiveLeader4.of v y {}) t0.LiveLeaders }

theorem LeaderAndIsrRequest.decodes {v : Int16} (hv : 0 ≤ v) (x : Val) (h : Protocol.LeaderAndIsrRequest.Valid false v x) (t0 : LeaderAndIsrRequest) :
    Reads (LeaderAndIsrRequest.decode v t0) (Protocol.LeaderAndIsrRequest.wire false v x) (LeaderAndIsrRequest.of v x t0) :=
  Reads.congr (((Step.field (set := fun (t : LeaderAndIsrRequest) x => { t with ControllerId := x }) (read_int32 (Fields.Valid.head (h) hv)))
      |>.andThen (Step.field (set := fun (t : LeaderAndIsrRequest) x => { t with ControllerEpoch := x }) (read_int32 (Fields.Valid.head (Fields.Valid.tail h) hv)))
      |>.andThen (Step.optField (c := v ≥ 2) (set := fun (t : LeaderAndIsrRequest) x => { t with BrokerEpoch := x }) (·.BrokerEpoch) (fun _ => rfl) fun hc => read_int64 (Fields.Valid.head (Fields.Valid.tail (Fields.Valid.tail h)) hc))
      |>.andThen (Step.readOptStructs (c := v ≥ 0 ∧ v ≤ 1) (get := fun (t : LeaderAndIsrRequest) => t.UngroupedPartitionStates) (set := fun (t : LeaderAndIsrRequest) x => { t with UngroupedPartitionStates := x }) (fun _ => rfl) (fun y hy => LeaderAndIsrPartitionState4.decodes hv y hy {}) fun hc => Fields.Valid.head (Fields.Valid.tail (Fields.Valid.tail (Fields.Valid.tail h))) hc)
      |>.andThen (Step.readOptStructs (c := v ≥ 2) (get := fun (t : LeaderAndIsrRequest) => t.TopicStates) (set := fun (t : LeaderAndIsrRequest) x => { t with TopicStates := x }) (fun _ => rfl) (fun y hy => LeaderAndIsrTopicState4.decodes hv y hy {}) fun hc => Fields.Valid.head (Fields.Valid.tail (Fields.Valid.tail (Fields.Valid.tail (Fields.Valid.tail h)))) hc)
      |>.andThen (Step.readStructs (get := fun (t : LeaderAndIsrRequest) => t.LiveLeaders) (set := fun (t : LeaderAndIsrRequest) x => { t with LiveLeaders := x }) (fun y hy => LeaderAndIsrLiveLeader4.decodes hv y hy {}) (Fields.Valid.head (Fields.Valid.tail (Fields.Valid.tail (Fields.Valid.tail (Fields.Valid.tail (Fields.Valid.tail h))))) hv)) : Step _ _ _) t0)
    (Writes.eq (fs := Protocol.LeaderAndIsrRequest) (v := v) (x := x) <| Writes.all hv rfl <| Writes.all hv rfl <| Writes.since rfl <| Writes.between rfl <| Writes.since rfl <| Writes.all hv rfl <| Writes.done).symm rfl

theorem LeaderAndIsrRequest.parses {v : Int16} (hv : 0 ≤ v) (t0 : LeaderAndIsrRequest) :
    Parses (LeaderAndIsrRequest.decode v t0) ((Ty.struct Protocol.LeaderAndIsrRequest).parse v) (fun x => LeaderAndIsrRequest.of v x t0) :=
  FParses.parses (fs := Protocol.LeaderAndIsrRequest)
    (FParses.field hv (set := fun (t : LeaderAndIsrRequest) x => { t with ControllerId := x }) par_int32 <|
    FParses.field hv (set := fun (t : LeaderAndIsrRequest) x => { t with ControllerEpoch := x }) par_int32 <|
    FParses.optField (c := v ≥ 2) Iff.rfl (set := fun (t : LeaderAndIsrRequest) x => { t with BrokerEpoch := x }) (·.BrokerEpoch) (fun _ => rfl) par_int64 <|
    FParses.optStructs (c := v ≥ 0 ∧ v ≤ 1) Iff.rfl (get := fun (t : LeaderAndIsrRequest) => t.UngroupedPartitionStates) (set := fun (t : LeaderAndIsrRequest) x => { t with UngroupedPartitionStates := x }) (fun _ => rfl) (LeaderAndIsrPartitionState4.parses hv {}) <|
    FParses.optStructs (c := v ≥ 2) Iff.rfl (get := fun (t : LeaderAndIsrRequest) => t.TopicStates) (set := fun (t : LeaderAndIsrRequest) x => { t with TopicStates := x }) (fun _ => rfl) (LeaderAndIsrTopicState4.parses hv {}) <|
    FParses.structs hv (get := fun (t : LeaderAndIsrRequest) => t.LiveLeaders) (set := fun (t : LeaderAndIsrRequest) x => { t with LiveLeaders := x }) (LeaderAndIsrLiveLeader4.parses hv {}) <|
    FParses.done)
    (by simp only [LeaderAndIsrRequest.decode, Dec.andThen_assoc, Dec.andThen_nop]) (Fields.distinct_nodup _ (by decide +kernel)) (fun _ _ => rfl) t0

theorem LeaderAndIsrRequest.shown {v : Int16} (hv : 0 ≤ v) (x : Val) (h : Protocol.LeaderAndIsrRequest.Typed v x) :
    Protocol.LeaderAndIsrRequest.shows v x (LeaderAndIsrRequest.val (LeaderAndIsrRequest.of v x {})) = true :=
  Shows.all hv (show_int32 (Fields.Typed.head (h) hv)) <|
    Shows.all hv (show_int32 (Fields.Typed.head (Fields.Typed.tail h) hv)) <|
    Shows.since (.int64) rfl (fun hc => show_int64 (Fields.Typed.head (Fields.Typed.tail (Fields.Typed.tail h)) hc)) rfl <|
    Shows.between (ofStructs LeaderAndIsrPartitionState4.val) rfl (fun hc => show_structs (f := LeaderAndIsrPartitionState4.val) (g := fun y => LeaderAndIsrPartitionState4.of v y {}) (fun y hy => LeaderAndIsrPartitionState4.shown hv y hy) (Fields.Typed.head (Fields.Typed.tail (Fields.Typed.tail (Fields.Typed.tail h))) hc)) rfl <|
    Shows.since (ofStructs LeaderAndIsrTopicState4.val) rfl (fun hc => show_structs (f := LeaderAndIsrTopicState4.val) (g := fun y => LeaderAndIsrTopicState4.of v y {}) (fun y hy => LeaderAndIsrTopicState4.shown hv y hy) (Fields.Typed.head (Fields.Typed.tail (Fields.Typed.tail (Fields.Typed.tail (Fields.Typed.tail h)))) hc)) rfl <|
    Shows.all hv (show_structs (f := LeaderAndIsrLiveLeader4.val) (g := fun y => LeaderAndIsrLiveLeader4.of v y {}) (fun y hy => LeaderAndIsrLiveLeader4.shown hv y hy) (Fields.Typed.head (Fields.Typed.tail (Fields.Typed.tail (Fields.Typed.tail (Fields.Typed.tail (Fields.Typed.tail h))))) hv)) <|
    rfl

end Kafka.Msg
