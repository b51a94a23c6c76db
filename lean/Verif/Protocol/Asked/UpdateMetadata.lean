import Verif.Protocol.Conform.UpdateMetadata
/-!
Generated by tools/gen_protocol.py: the UpdateMetadata request is read as the protocol says.
-/
namespace Kafka.Msg

open Protocol

/-- What `UpdateMetadataPartitionState6` holds after reading the value `x` into `t0`. -/
def UpdateMetadataPartitionState6.of (v : Int16) (x : Val) (t0 : UpdateMetadataPartitionState6) : UpdateMetadataPartitionState6 :=
  { TopicName := if v ≥ 0 ∧ v ≤ 4 then (x.get "TopicName").toStr else t0.TopicName,
    PartitionIndex := (x.get "PartitionIndex").toInt32,
    ControllerEpoch := (x.get "ControllerEpoch").toInt32,
    Leader := (x.get "Leader").toInt32,
    LeaderEpoch := (x.get "LeaderEpoch").toInt32,
    Isr := (x.get "Isr").toSlice Val.toInt32,
    ZkVersion := (x.get "ZkVersion").toInt32,
    Replicas := (x.get "Replicas").toSlice Val.toInt32,
    OfflineReplicas := if v ≥ 4 then (x.get "OfflineReplicas").toSlice Val.toInt32 else t0.OfflineReplicas }

theorem UpdateMetadataPartitionState6.decodes {v : Int16} (hv : 0 ≤ v) (x : Val) (h : Protocol.UpdateMetadataPartitionState.Valid false v x) (t0 : UpdateMetadataPartitionState6) :
    Reads (UpdateMetadataPartitionState6.decode v t0) (Protocol.UpdateMetadataPartitionState.wire false v x) (UpdateMetadataPartitionState6.of v x t0) :=
  Reads.congr (((Step.optField (c := v ≥ 0 ∧ v ≤ 4) (set := fun (t : UpdateMetadataPartitionState6) x => { t with TopicName := x }) (·.TopicName) (fun _ => rfl) fun hc => read_string (Fields.Valid.head (h) hc))
      |>.andThen (Step.field (set := fun (t : UpdateMetadataPartitionState6) x => { t with PartitionIndex := x }) (read_int32 (Fields.Valid.head (Fields.Valid.tail h) hv)))
      |>.andThen (Step.field (set := fun (t : UpdateMetadataPartitionState6) x => { t with ControllerEpoch := x }) (read_int32 (Fields.Valid.head (Fields.Valid.tail (Fields.Valid.tail h)) hv)))
      |>.andThen (Step.field (set := fun (t : UpdateMetadataPartitionState6) x => { t with Leader := x }) (read_int32 (Fields.Valid.head (Fields.Valid.tail (Fields.Valid.tail (Fields.Valid.tail h))) hv)))
      |>.andThen (Step.field (set := fun (t : UpdateMetadataPartitionState6) x => { t with LeaderEpoch := x }) (read_int32 (Fields.Valid.head (Fields.Valid.tail (Fields.Valid.tail (Fields.Valid.tail (Fields.Valid.tail h)))) hv)))
      |>.andThen (Step.field (set := fun (t : UpdateMetadataPartitionState6) x => { t with Isr := x }) (read_int32Array (Fields.Valid.head (Fields.Valid.tail (Fields.Valid.tail (Fields.Valid.tail (Fields.Valid.tail (Fields.Valid.tail h))))) hv)))
      |>.andThen (Step.field (set := fun (t : UpdateMetadataPartitionState6) x => { t with ZkVersion := x }) (read_int32 (Fields.Valid.head (Fields.Valid.tail (Fields.Valid.tail (Fields.Valid.tail (Fields.Valid.tail (Fields.Valid.tail (Fields.Valid.tail h)))))) hv)))
      |>.andThen (Step.field (set := fun (t : UpdateMetadataPartitionState6) x => { t with Replicas := x }) (read_int32Array (Fields.Valid.head (Fields.Valid.tail (Fields.Valid.tail (Fields.Valid.tail (Fields.Valid.tail (Fields.Valid.tail (Fields.Valid.tail (Fields.Valid.tail h))))))) hv)))
      |>.andThen (Step.optField (c := v ≥ 4) (set := fun (t : UpdateMetadataPartitionState6) x => { t with OfflineReplicas := x }) (·.OfflineReplicas) (fun _ => rfl) fun hc => read_int32Array (Fields.Valid.head (Fields.Valid.tail (Fields.Valid.tail (Fields.Valid.tail (Fields.Valid.tail (Fields.Valid.tail (Fields.Valid.tail (Fields.Valid.tail (Fields.Valid.tail h)))))))) hc)) : Step _ _ _) t0)
    (Writes.eq (fs := Protocol.UpdateMetadataPartitionState) (v := v) (x := x) <| Writes.between rfl <| Writes.all hv rfl <| Writes.all hv rfl <| Writes.all hv rfl <| Writes.all hv rfl <| Writes.all hv rfl <| Writes.all hv rfl <| Writes.all hv rfl <| Writes.since rfl <| Writes.done).symm rfl

theorem UpdateMetadataPartitionState6.parses {v : Int16} (hv : 0 ≤ v) (t0 : UpdateMetadataPartitionState6) :
    Parses (UpdateMetadataPartitionState6.decode v t0) ((Ty.struct Protocol.UpdateMetadataPartitionState).parse v) (fun x => UpdateMetadataPartitionState6.of v x t0) :=
  FParses.parses (fs := Protocol.UpdateMetadataPartitionState)
    (FParses.optField (c := v ≥ 0 ∧ v ≤ 4) Iff.rfl (set := fun (t : UpdateMetadataPartitionState6) x => { t with TopicName := x }) (·.TopicName) (fun _ => rfl) par_string <|
    FParses.field hv (set := fun (t : UpdateMetadataPartitionState6) x => { t with PartitionIndex := x }) par_int32 <|
    FParses.field hv (set := fun (t : UpdateMetadataPartitionState6) x => { t with ControllerEpoch := x }) par_int32 <|
    FParses.field hv (set := fun (t : UpdateMetadataPartitionState6) x => { t with Leader := x }) par_int32 <|
    FParses.field hv (set := fun (t : UpdateMetadataPartitionState6) x => { t with LeaderEpoch := x }) par_int32 <|
    FParses.field hv (set := fun (t : UpdateMetadataPartitionState6) x => { t with Isr := x }) par_int32Array <|
    FParses.field hv (set := fun (t : UpdateMetadataPartitionState6) x => { t with ZkVersion := x }) par_int32 <|
    FParses.field hv (set := fun (t : UpdateMetadataPartitionState6) x => { t with Replicas := x }) par_int32Array <|
    FParses.optField (c := v ≥ 4) Iff.rfl (set := fun (t : UpdateMetadataPartitionState6) x => { t with OfflineReplicas := x }) (·.OfflineReplicas) (fun _ => rfl) par_int32Array <|
    FParses.done)
    (by simp only [UpdateMetadataPartitionState6.decode, Dec.andThen_assoc, Dec.andThen_nop]) (Fields.distinct_nodup _ (by decide +kernel)) (fun _ _ => rfl) t0

theorem UpdateMetadataPartitionState6.shown {v : Int16} (hv : 0 ≤ v) (x : Val) (h : Protocol.UpdateMetadataPartitionState.Typed v x) :
    Protocol.UpdateMetadataPartitionState.shows v x (UpdateMetadataPartitionState6.val (UpdateMetadataPartitionState6.of v x {})) = true :=
  Shows.between (fun s => .str (some s)) rfl (fun hc => show_string (Fields.Typed.head (h) hc)) rfl <|
    Shows.all hv (show_int32 (Fields.Typed.head (Fields.Typed.tail h) hv)) <|
    Shows.all hv (show_int32 (Fields.Typed.head (Fields.Typed.tail (Fields.Typed.tail h)) hv)) <|
    Shows.all hv (show_int32 (Fields.Typed.head (Fields.Typed.tail (Fields.Typed.tail (Fields.Typed.tail h))) hv)) <|
    Shows.all hv (show_int32 (Fields.Typed.head (Fields.Typed.tail (Fields.Typed.tail (Fields.Typed.tail (Fields.Typed.tail h)))) hv)) <|
    Shows.all hv (show_int32Array (Fields.Typed.head (Fields.Typed.tail (Fields.Typed.tail (Fields.Typed.tail (Fields.Typed.tail (Fields.Typed.tail h))))) hv)) <|
    Shows.all hv (show_int32 (Fields.Typed.head (Fields.Typed.tail (Fields.Typed.tail (Fields.Typed.tail (Fields.Typed.tail (Fields.Typed.tail (Fields.Typed.tail h)))))) hv)) <|
    Shows.all hv (show_int32Array (Fields.Typed.head (Fields.Typed.tail (Fields.Typed.tail (Fields.Typed.tail (Fields.Typed.tail (Fields.Typed.tail (Fields.Typed.tail (Fields.Typed.tail h))))))) hv)) <|
    Shows.since (ofScalars .int32) rfl (fun hc => show_int32Array (Fields.Typed.head (Fields.Typed.tail (Fields.Typed.tail (Fields.Typed.tail (Fields.Typed.tail (Fields.Typed.tail (Fields.Typed.tail (Fields.Typed.tail (Fields.Typed.tail h)))))))) hc)) rfl <|
    rfl

/-- What `UpdateMetadataTopicState6` holds after reading the value `x` into `t0`. -/
def UpdateMetadataTopicState6.of (v : Int16) (x : Val) (t0 : UpdateMetadataTopicState6) : UpdateMetadataTopicState6 :=
  { TopicName := if v ≥ 5 then (x.get "TopicName").toStr else t0.TopicName,
    PartitionStates := if v ≥ 5 then (x.get "PartitionStates").toSliceOr (fun y => UpdateMetadataPartitionState6.of v y {}) t0.PartitionStates else t0.PartitionStates }

theorem UpdateMetadataTopicState6.decodes {v : Int16} (hv : 0 ≤ v) (x : Val) (h : Protocol.UpdateMetadataTopicState.Valid false v x) (t0 : UpdateMetadataTopicState6) :
    Reads (UpdateMetadataTopicState6.decode v t0) (Protocol.UpdateMetadataTopicState.wire false v x) (UpdateMetadataTopicState6.of v x t0) :=
  Reads.congr (((Step.optField (c := v ≥ 5) (set := fun (t : UpdateMetadataTopicState6) x => { t with TopicName := x }) (·.TopicName) (fun _ => rfl) fun hc => read_string (Fields.Valid.head (h) hc))
      |>.andThen (Step.readOptStructs (c := v ≥ 5) (get := fun (t : UpdateMetadataTopicState6) => t.PartitionStates) (set := fun (t : UpdateMetadataTopicState6) x => { t with PartitionStates := x }) (fun _ => rfl) (fun y hy => UpdateMetadataPartitionState6.decodes hv y hy {}) fun hc => Fields.Valid.head (Fields.Valid.tail h) hc) : Step _ _ _) t0)
    (Writes.eq (fs := Protocol.UpdateMetadataTopicState) (v := v) (x := x) <| Writes.since rfl <| Writes.since rfl <| Writes.done).symm rfl

theorem UpdateMetadataTopicState6.parses {v : Int16} (hv : 0 ≤ v) (t0 : UpdateMetadataTopicState6) :
    Parses (UpdateMetadataTopicState6.decode v t0) ((Ty.struct Protocol.UpdateMetadataTopicState).parse v) (fun x => UpdateMetadataTopicState6.of v x t0) :=
  FParses.parses (fs := Protocol.UpdateMetadataTopicState)
    (FParses.optField (c := v ≥ 5) Iff.rfl (set := fun (t : UpdateMetadataTopicState6) x => { t with TopicName := x }) (·.TopicName) (fun _ => rfl) par_string <|
    FParses.optStructs (c := v ≥ 5) Iff.rfl (get := fun (t : UpdateMetadataTopicState6) => t.PartitionStates) (set := fun (t : UpdateMetadataTopicState6) x => { t with PartitionStates := x }) (fun _ => rfl) (UpdateMetadataPartitionState6.parses hv {}) <|
    FParses.done)
    (by simp only [UpdateMetadataTopicState6.decode, Dec.andThen_nop]) (Fields.distinct_nodup _ (by decide +kernel)) (fun _ _ => rfl) t0

theorem UpdateMetadataTopicState6.shown {v : Int16} (hv : 0 ≤ v) (x : Val) (h : Protocol.UpdateMetadataTopicState.Typed v x) :
    Protocol.UpdateMetadataTopicState.shows v x (UpdateMetadataTopicState6.val (UpdateMetadataTopicState6.of v x {})) = true :=
  Shows.since (fun s => .str (some s)) rfl (fun hc => show_string (Fields.Typed.head (h) hc)) rfl <|
    Shows.since (ofStructs UpdateMetadataPartitionState6.val) rfl (fun hc => show_structs (f := UpdateMetadataPartitionState6.val) (g := fun y => UpdateMetadataPartitionState6.of v y {}) (fun y hy => UpdateMetadataPartitionState6.shown hv y hy) (Fields.Typed.head (Fields.Typed.tail h) hc)) rfl <|
    rfl

/-- What `UpdateMetadataEndpoint6` holds after reading the value `x` into `t0`. -/
def UpdateMetadataEndpoint6.of (v : Int16) (x : Val) (t0 : UpdateMetadataEndpoint6) : UpdateMetadataEndpoint6 :=
  { Port := if v ≥ 1 then (x.get "Port").toInt32 else t0.Port,
    Host := if v ≥ 1 then (x.get "Host").toStr else t0.Host,
    Listener := if v ≥ 3 then (x.get "Listener").toStr else t0.Listener,
    SecurityProtocol := if v ≥ 1 then (x.get "SecurityProtocol").toInt16 else t0.SecurityProtocol }

theorem UpdateMetadataEndpoint6.decodes {v : Int16} (_hv : 0 ≤ v) (x : Val) (h : Protocol.UpdateMetadataEndpoint.Valid false v x) (t0 : UpdateMetadataEndpoint6) :
    Reads (UpdateMetadataEndpoint6.decode v t0) (Protocol.UpdateMetadataEndpoint.wire false v x) (UpdateMetadataEndpoint6.of v x t0) :=
  Reads.congr (((Step.optField (c := v ≥ 1) (set := fun (t : UpdateMetadataEndpoint6) x => { t with Port := x }) (·.Port) (fun _ => rfl) fun hc => read_int32 (Fields.Valid.head (h) hc))
      |>.andThen (Step.optField (c := v ≥ 1) (set := fun (t : UpdateMetadataEndpoint6) x => { t with Host := x }) (·.Host) (fun _ => rfl) fun hc => read_string (Fields.Valid.head (Fields.Valid.tail h) hc))
      |>.andThen (Step.optField (c := v ≥ 3) (set := fun (t : UpdateMetadataEndpoint6) x => { t with Listener := x }) (·.Listener) (fun _ => rfl) fun hc => read_string (Fields.Valid.head (Fields.Valid.tail (Fields.Valid.tail h)) hc))
      |>.andThen (Step.optField (c := v ≥ 1) (set := fun (t : UpdateMetadataEndpoint6) x => { t with SecurityProtocol := x }) (·.SecurityProtocol) (fun _ => rfl) fun hc => read_int16 (Fields.Valid.head (Fields.Valid.tail (Fields.Valid.tail (Fields.Valid.tail h))) hc)) : Step _ _ _) t0)
    (Writes.eq (fs := Protocol.UpdateMetadataEndpoint) (v := v) (x := x) <| Writes.since rfl <| Writes.since rfl <| Writes.since rfl <| Writes.since rfl <| Writes.done).symm rfl

theorem UpdateMetadataEndpoint6.parses {v : Int16} (_hv : 0 ≤ v) (t0 : UpdateMetadataEndpoint6) :
    Parses (UpdateMetadataEndpoint6.decode v t0) ((Ty.struct Protocol.UpdateMetadataEndpoint).parse v) (fun x => UpdateMetadataEndpoint6.of v x t0) :=
  FParses.parses (fs := Protocol.UpdateMetadataEndpoint)
    (FParses.optField (c := v ≥ 1) Iff.rfl (set := fun (t : UpdateMetadataEndpoint6) x => { t with Port := x }) (·.Port) (fun _ => rfl) par_int32 <|
    FParses.optField (c := v ≥ 1) Iff.rfl (set := fun (t : UpdateMetadataEndpoint6) x => { t with Host := x }) (·.Host) (fun _ => rfl) par_string <|
    FParses.optField (c := v ≥ 3) Iff.rfl (set := fun (t : UpdateMetadataEndpoint6) x => { t with Listener := x }) (·.Listener) (fun _ => rfl) par_string <|
    FParses.optField (c := v ≥ 1) Iff.rfl (set := fun (t : UpdateMetadataEndpoint6) x => { t with SecurityProtocol := x }) (·.SecurityProtocol) (fun _ => rfl) par_int16 <|
    FParses.done)
    (by simp only [UpdateMetadataEndpoint6.decode, Dec.andThen_assoc, Dec.andThen_nop]) (Fields.distinct_nodup _ (by decide +kernel)) (fun _ _ => rfl) t0

theorem UpdateMetadataEndpoint6.shown {v : Int16} (_hv : 0 ≤ v) (x : Val) (h : Protocol.UpdateMetadataEndpoint.Typed v x) :
    Protocol.UpdateMetadataEndpoint.shows v x (UpdateMetadataEndpoint6.val (UpdateMetadataEndpoint6.of v x {})) = true :=
  Shows.since (.int32) rfl (fun hc => show_int32 (Fields.Typed.head (h) hc)) rfl <|
    Shows.since (fun s => .str (some s)) rfl (fun hc => show_string (Fields.Typed.head (Fields.Typed.tail h) hc)) rfl <|
    Shows.since (fun s => .str (some s)) rfl (fun hc => show_string (Fields.Typed.head (Fields.Typed.tail (Fields.Typed.tail h)) hc)) rfl <|
    Shows.since (.int16) rfl (fun hc => show_int16 (Fields.Typed.head (Fields.Typed.tail (Fields.Typed.tail (Fields.Typed.tail h))) hc)) rfl <|
    rfl

/-- What `UpdateMetadataBroker6` holds after reading the value `x` into `t0`. -/
def UpdateMetadataBroker6.of (v : Int16) (x : Val) (t0 : UpdateMetadataBroker6) : UpdateMetadataBroker6 :=
  { Id := (x.get "Id").toInt32,
    V0Host := if v ≥ 0 ∧ v ≤ 0 then (x.get "V0Host").toStr else t0.V0Host,
    V0Port := if v ≥ 0 ∧ v ≤ 0 then (x.get "V0Port").toInt32 else t0.V0Port,
    Endpoints := if v ≥ 1 then (x.get "Endpoints").toSliceOr (fun y => UpdateMetadataEndpoint6.of v y {}) t0.Endpoints else t0.Endpoints,
    Rack := if v ≥ 2 then (x.get "Rack").toStr else t0.Rack }

theorem UpdateMetadataBroker6.decodes {v : Int16} (hv : 0 ≤ v) (x : Val) (h : Protocol.UpdateMetadataBroker.Valid false v x) (t0 : UpdateMetadataBroker6) :
    Reads (UpdateMetadataBroker6.decode v t0) (Protocol.UpdateMetadataBroker.wire false v x) (UpdateMetadataBroker6.of v x t0) :=
  Reads.congr (((Step.field (set := fun (t : UpdateMetadataBroker6) x => { t with Id := x }) (read_int32 (Fields.Valid.head (h) hv)))
      |>.andThen (Step.optField (c := v ≥ 0 ∧ v ≤ 0) (set := fun (t : UpdateMetadataBroker6) x => { t with V0Host := x }) (·.V0Host) (fun _ => rfl) fun hc => read_string (Fields.Valid.head (Fields.Valid.tail h) hc))
      |>.andThen (Step.optField (c := v ≥ 0 ∧ v ≤ 0) (set := fun (t : UpdateMetadataBroker6) x => { t with V0Port := x }) (·.V0Port) (fun _ => rfl) fun hc => read_int32 (Fields.Valid.head (Fields.Valid.tail (Fields.Valid.tail h)) hc))
      |>.andThen (Step.readOptStructs (c := v ≥ 1) (get := fun (t : UpdateMetadataBroker6) => t.Endpoints) (set := fun (t : UpdateMetadataBroker6) x => { t with Endpoints := x }) (fun _ => rfl) (fun y hy => UpdateMetadataEndpoint6.decodes hv y hy {}) fun hc => Fields.Valid.head (Fields.Valid.tail (Fields.Valid.tail (Fields.Valid.tail h))) hc)
      |>.andThen (Step.optField (c := v ≥ 2) (set := fun (t : UpdateMetadataBroker6) x => { t with Rack := x }) (·.Rack) (fun _ => rfl) fun hc => read_string (Fields.Valid.head (Fields.Valid.tail (Fields.Valid.tail (Fields.Valid.tail (Fields.Valid.tail h)))) hc)) : Step _ _ _) t0)
    (Writes.eq (fs := Protocol.UpdateMetadataBroker) (v := v) (x := x) <| Writes.all hv rfl <| Writes.between rfl <| Writes.between rfl <| Writes.since rfl <| Writes.since rfl <| Writes.done).symm rfl

theorem UpdateMetadataBroker6.parses {v : Int16} (hv : 0 ≤ v) (t0 : UpdateMetadataBroker6) :
    Parses (UpdateMetadataBroker6.decode v t0) ((Ty.struct Protocol.UpdateMetadataBroker).parse v) (fun x => UpdateMetadataBroker6.of v x t0) :=
  FParses.parses (fs := Protocol.UpdateMetadataBroker)
    (FParses.field hv (set := fun (t : UpdateMetadataBroker6) x => { t with Id := x }) par_int32 <|
    FParses.optField (c := v ≥ 0 ∧ v ≤ 0) Iff.rfl (set := fun (t : UpdateMetadataBroker6) x => { t with V0Host := x }) (·.V0Host) (fun _ => rfl) par_string <|
    FParses.optField (c := v ≥ 0 ∧ v ≤ 0) Iff.rfl (set := fun (t : UpdateMetadataBroker6) x => { t with V0Port := x }) (·.V0Port) (fun _ => rfl) par_int32 <|
    FParses.optStructs (c := v ≥ 1) Iff.rfl (get := fun (t : UpdateMetadataBroker6) => t.Endpoints) (set := fun (t : UpdateMetadataBroker6) x => { t with Endpoints := x }) (fun _ => rfl) (UpdateMetadataEndpoint6.parses hv {}) <|
    FParses.optField (c := v ≥ 2) Iff.rfl (set := fun (t : UpdateMetadataBroker6) x => { t with Rack := x }) (·.Rack) (fun _ => rfl) par_string <|
    FParses.done)
    (by simp only [UpdateMetadataBroker6.decode, Dec.andThen_assoc, Dec.andThen_nop]) (Fields.distinct_nodup _ (by decide +kernel)) (fun _ _ => rfl) t0

theorem UpdateMetadataBroker6.shown {v : Int16} (hv : 0 ≤ v) (x : Val) (h : Protocol.UpdateMetadataBroker.Typed v x) :
    Protocol.UpdateMetadataBroker.shows v x (UpdateMetadataBroker6.val (UpdateMetadataBroker6.of v x {})) = true :=
  Shows.all hv (show_int32 (Fields.Typed.head (h) hv)) <|
    Shows.between (fun s => .str (some s)) rfl (fun hc => show_string (Fields.Typed.head (Fields.Typed.tail h) hc)) rfl <|
    Shows.between (.int32) rfl (fun hc => show_int32 (Fields.Typed.head (Fields.Typed.tail (Fields.Typed.tail h)) hc)) rfl <|
    Shows.since (ofStructs UpdateMetadataEndpoint6.val) rfl (fun hc => show_structs (f := UpdateMetadataEndpoint6.val) (g := fun y => UpdateMetadataEndpoint6.of v y {}) (fun y hy => UpdateMetadataEndpoint6.shown hv y hy) (Fields.Typed.head (Fields.Typed.tail (Fields.Typed.tail (Fields.Typed.tail h))) hc)) rfl <|
    Shows.since (fun s => .str (some s)) rfl (fun hc => show_string (Fields.Typed.head (Fields.Typed.tail (Fields.Typed.tail (Fields.Typed.tail (Fields.Typed.tail h)))) hc)) rfl <|
    rfl

/-- What `UpdateMetadataRequest` holds after reading the value `x` into `t0`. -/
def UpdateMetadataRequest.of (v : Int16) (x : Val) (t0 : UpdateMetadataRequest) : UpdateMetadataRequest :=
  { ControllerId := (x.get "ControllerId").toInt32,
    ControllerEpoch := (x.get "ControllerEpoch").toInt32,
    BrokerEpoch := if v ≥ 5 then (x.get "BrokerEpoch").toInt64 else t0.BrokerEpoch,
    UngroupedPartitionStates := if v ≥ 0 ∧ v ≤ 4 then (x.get "UngroupedPartitionStates").toSliceOr (fun y => UpdateMetadataPartitionState6.of v y {}) t0.UngroupedPartitionStates else t0.UngroupedPartitionStates,
    TopicStates := if v ≥ 5 then (x.get "TopicStates").toSliceOr (fun y => UpdateMetadataTopicState6.of v y {}) t0.TopicStates else t0.TopicStates,
    LiveBrokers := (x.get "LiveBrokers").toSliceOr (fun y => UpdateMetadataBroker6.of v y {}) t0.LiveBrokers }

theorem UpdateMetadataRequest.decodes {v : Int16} (hv : 0 ≤ v) (x : Val) (h : Protocol.UpdateMetadataRequest.Valid false v x) (t0 : UpdateMetadataRequest) :
    Reads (UpdateMetadataRequest.decode v t0) (Protocol.UpdateMetadataRequest.wire false v x) (UpdateMetadataRequest.of v x t0) :=
  Reads.congr (((Step.field (set := fun (t : UpdateMetadataRequest) x => { t with ControllerId := x }) (read_int32 (Fields.Valid.head (h) hv)))
      |>.andThen (Step.field (set := fun (t : UpdateMetadataRequest) x => { t with ControllerEpoch := x }) (read_int32 (Fields.Valid.head (Fields.Valid.tail h) hv)))
      |>.andThen (Step.optField (c := v ≥ 5) (set := fun (t : UpdateMetadataRequest) x => { t with BrokerEpoch := x }) (·.BrokerEpoch) (fun _ => rfl) fun hc => read_int64 (Fields.Valid.head (Fields.Valid.tail (Fields.Valid.tail h)) hc))
      |>.andThen (Step.readOptStructs (c := v ≥ 0 ∧ v ≤ 4) (get := fun (t : UpdateMetadataRequest) => t.UngroupedPartitionStates) (set := fun (t : UpdateMetadataRequest) x => { t with UngroupedPartitionStates := x }) (fun _ => rfl) (fun y hy => UpdateMetadataPartitionState6.decodes hv y hy {}) fun hc => Fields.Valid.head (Fields.Valid.tail (Fields.Valid.tail (Fields.Valid.tail h))) hc)
      |>.andThen (Step.readOptStructs (c := v ≥ 5) (get := fun (t : UpdateMetadataRequest) => t.TopicStates) (set := fun (t : UpdateMetadataRequest) x => { t with TopicStates := x }) (fun _ => rfl) (fun y hy => UpdateMetadataTopicState6.decodes hv y hy {}) fun hc => Fields.Valid.head (Fields.Valid.tail (Fields.Valid.tail (Fields.Valid.tail (Fields.Valid.tail h)))) hc)
      |>.andThen (Step.readStructs (get := fun (t : UpdateMetadataRequest) => t.LiveBrokers) (set := fun (t : UpdateMetadataRequest) x => { t with LiveBrokers := x }) (fun y hy => UpdateMetadataBroker6.decodes hv y hy {}) (Fields.Valid.head (Fields.Valid.tail (Fields.Valid.tail (Fields.Valid.tail (Fields.Valid.tail (Fields.Valid.tail h))))) hv)) : Step _ _ _) t0)
    (Writes.eq (fs := Protocol.UpdateMetadataRequest) (v := v) (x := x) <| Writes.all hv rfl <| Writes.all hv rfl <| Writes.since rfl <| Writes.between rfl <| Writes.since rfl <| Writes.all hv rfl <| Writes.done).symm rfl

theorem UpdateMetadataRequest.parses {v : Int16} (hv : 0 ≤ v) (t0 : UpdateMetadataRequest) :
    Parses (UpdateMetadataRequest.decode v t0) ((Ty.struct Protocol.UpdateMetadataRequest).parse v) (fun x => UpdateMetadataRequest.of v x t0) :=
  FParses.parses (fs := Protocol.UpdateMetadataRequest)
    (FParses.field hv (set := fun (t : UpdateMetadataRequest) x => { t with ControllerId := x }) par_int32 <|
    FParses.field hv (set := fun (t : UpdateMetadataRequest) x => { t with ControllerEpoch := x }) par_int32 <|
    FParses.optField (c := v ≥ 5) Iff.rfl (set := fun (t : UpdateMetadataRequest) x => { t with BrokerEpoch := x }) (·.BrokerEpoch) (fun _ => rfl) par_int64 <|
    FParses.optStructs (c := v ≥ 0 ∧ v ≤ 4) Iff.rfl (get := fun (t : UpdateMetadataRequest) => t.UngroupedPartitionStates) (set := fun (t : UpdateMetadataRequest) x => { t with UngroupedPartitionStates := x }) (fun _ => rfl) (UpdateMetadataPartitionState6.parses hv {}) <|
    FParses.optStructs (c := v ≥ 5) Iff.rfl (get := fun (t : UpdateMetadataRequest) => t.TopicStates) (set := fun (t : UpdateMetadataRequest) x => { t with TopicStates := x }) (fun _ => rfl) (UpdateMetadataTopicState6.parses hv {}) <|
    FParses.structs hv (get := fun (t : UpdateMetadataRequest) => t.LiveBrokers) (set := fun (t : UpdateMetadataRequest) x => { t with LiveBrokers := x }) (UpdateMetadataBroker6.parses hv {}) <|
    FParses.done)
    (by simp only [UpdateMetadataRequest.decode, Dec.andThen_assoc, Dec.andThen_nop]) (Fields.distinct_nodup _ (by decide +kernel)) (fun _ _ => rfl) t0

theorem UpdateMetadataRequest.shown {v : Int16} (hv : 0 ≤ v) (x : Val) (h : Protocol.UpdateMetadataRequest.Typed v x) :
    Protocol.UpdateMetadataRequest.shows v x (UpdateMetadataRequest.val (UpdateMetadataRequest.of v x {})) = true :=
  Shows.all hv (show_int32 (Fields.Typed.head (h) hv)) <|
    Shows.all hv (show_int32 (Fields.Typed.head (Fields.Typed.tail h) hv)) <|
    Shows.since (.int64) rfl (fun hc => show_int64 (Fields.Typed.head (Fields.Typed.tail (Fields.Typed.tail h)) hc)) rfl <|
    Shows.between (ofStructs UpdateMetadataPartitionState6.val) rfl (fun hc => show_structs (f := UpdateMetadataPartitionState6.val) (g := fun y => UpdateMetadataPartitionState6.of v y {}) (fun y hy => UpdateMetadataPartitionState6.shown hv y hy) (Fields.Typed.head (Fields.Typed.tail (Fields.Typed.tail (Fields.Typed.tail h))) hc)) rfl <|
    Shows.since (ofStructs UpdateMetadataTopicState6.val) rfl (fun hc => show_structs (f := UpdateMetadataTopicState6.val) (g := fun y => UpdateMetadataTopicState6.of v y {}) (fun y hy => UpdateMetadataTopicState6.shown hv y hy) (Fields.Typed.head (Fields.Typed.tail (Fields.Typed.tail (Fields.Typed.tail (Fields.Typed.tail h)))) hc)) rfl <|
    Shows.all hv (show_structs (f := UpdateMetadataBroker6.val) (g := fun y => UpdateMetadataBroker6.of v y {}) (fun y hy => UpdateMetadataBroker6.shown hv y hy) (Fields.Typed.head (Fields.Typed.tail (Fields.Typed.tail (Fields.Typed.tail (Fields.Typed.tail (Fields.Typed.tail h))))) hv)) <|
    rfl

end Kafka.Msg
