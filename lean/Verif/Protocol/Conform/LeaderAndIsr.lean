import Verif.Protocol.ParseLemmas
import Verif.Gen.Spec.LeaderAndIsr
/-!
Generated by tools/gen_protocol.py: the LeaderAndIsr messages are written and read as the protocol says.
-/
namespace Kafka.Msg

open Protocol

/-- `LeaderAndIsrPartitionState4` as a value of the protocol. -/
def LeaderAndIsrPartitionState4.val (t : LeaderAndIsrPartitionState4) : Val :=
  .struct [("TopicName", .str (some t.TopicName)),
    ("PartitionIndex", .int32 t.PartitionIndex),
    ("ControllerEpoch", .int32 t.ControllerEpoch),
    ("Leader", .int32 t.Leader),
    ("LeaderEpoch", .int32 t.LeaderEpoch),
    ("Isr", ofScalars .int32 t.Isr),
    ("ZkVersion", .int32 t.ZkVersion),
    ("Replicas", ofScalars .int32 t.Replicas),
    ("AddingReplicas", ofScalars .int32 t.AddingReplicas),
    ("RemovingReplicas", ofScalars .int32 t.RemovingReplicas),
    ("IsNew", .bool t.IsNew)]

theorem LeaderAndIsrPartitionState4.conforms {v : Int16} (hv : 0 ≤ v) (t : LeaderAndIsrPartitionState4) :
    Protocol.LeaderAndIsrPartitionState.wire false v (LeaderAndIsrPartitionState4.val t) = LeaderAndIsrPartitionState4.wire v t :=
  Writes.eq <|
    Writes.between (Protocol.wire_string v t.TopicName) <|
    Writes.all hv (Protocol.wire_int32 v t.PartitionIndex) <|
    Writes.all hv (Protocol.wire_int32 v t.ControllerEpoch) <|
    Writes.all hv (Protocol.wire_int32 v t.Leader) <|
    Writes.all hv (Protocol.wire_int32 v t.LeaderEpoch) <|
    Writes.all hv (Protocol.wire_int32Array v t.Isr) <|
    Writes.all hv (Protocol.wire_int32 v t.ZkVersion) <|
    Writes.all hv (Protocol.wire_int32Array v t.Replicas) <|
    Writes.since (Protocol.wire_int32Array v t.AddingReplicas) <|
    Writes.since (Protocol.wire_int32Array v t.RemovingReplicas) <|
    Writes.since (Protocol.wire_bool v t.IsNew) <|
    Writes.done

/-- No slice of scalars is nil where the protocol has no null. -/
structure LeaderAndIsrPartitionState4.Full (v : Int16) (t : LeaderAndIsrPartitionState4) : Prop where
  Isr : t.Isr.NotNil
  Replicas : t.Replicas.NotNil
  AddingReplicas : v ≥ 3 → t.AddingReplicas.NotNil
  RemovingReplicas : v ≥ 3 → t.RemovingReplicas.NotNil

theorem LeaderAndIsrPartitionState4.valid {v : Int16} (_hv : 0 ≤ v) (t : LeaderAndIsrPartitionState4) (h : t.Fits v) (hf : t.Full v) :
    Protocol.LeaderAndIsrPartitionState.Valid true v (LeaderAndIsrPartitionState4.val t) :=
  Valids.between (fun hc => valid_string (h.TopicName hc)) <|
    Valids.all trivial <|
    Valids.all trivial <|
    Valids.all trivial <|
    Valids.all trivial <|
    Valids.all (valid_int32Array (h.Isr) (.inr (hf.Isr))) <|
    Valids.all trivial <|
    Valids.all (valid_int32Array (h.Replicas) (.inr (hf.Replicas))) <|
    Valids.since (fun hc => valid_int32Array (h.AddingReplicas hc) (.inr (hf.AddingReplicas hc))) <|
    Valids.since (fun hc => valid_int32Array (h.RemovingReplicas hc) (.inr (hf.RemovingReplicas hc))) <|
    Valids.since (fun _ => trivial) <|
    trivial

/-- `LeaderAndIsrTopicState4` as a value of the protocol. -/
def LeaderAndIsrTopicState4.val (t : LeaderAndIsrTopicState4) : Val :=
  .struct [("TopicName", .str (some t.TopicName)),
    ("PartitionStates", ofStructs LeaderAndIsrPartitionState4.val t.PartitionStates)]

theorem LeaderAndIsrTopicState4.conforms {v : Int16} (hv : 0 ≤ v) (t : LeaderAndIsrTopicState4) :
    Protocol.LeaderAndIsrTopicState.wire false v (LeaderAndIsrTopicState4.val t) = LeaderAndIsrTopicState4.wire v t :=
  Writes.eq <|
    Writes.since (Protocol.wire_string v t.TopicName) <|
    Writes.since (Protocol.wire_structs v (LeaderAndIsrPartitionState4.conforms hv) t.PartitionStates) <|
    Writes.done

/-- No slice of scalars is nil where the protocol has no null. -/
structure LeaderAndIsrTopicState4.Full (v : Int16) (t : LeaderAndIsrTopicState4) : Prop where
  PartitionStates : v ≥ 2 → FullAll (LeaderAndIsrPartitionState4.Full v) t.PartitionStates

theorem LeaderAndIsrTopicState4.valid {v : Int16} (hv : 0 ≤ v) (t : LeaderAndIsrTopicState4) (h : t.Fits v) (hf : t.Full v) :
    Protocol.LeaderAndIsrTopicState.Valid true v (LeaderAndIsrTopicState4.val t) :=
  Valids.since (fun hc => valid_string (h.TopicName hc)) <|
    Valids.since (fun hc => valid_structs (fun y h hf => LeaderAndIsrPartitionState4.valid hv y h hf) (h.PartitionStates hc) (hf.PartitionStates hc)) <|
    trivial

/-- `LeaderAndIsrLiveLeader4` as a value of the protocol. -/
def LeaderAndIsrLiveLeader4.val (t : LeaderAndIsrLiveLeader4) : Val :=
  .struct [("BrokerId", .int32 t.BrokerId),
    ("HostName", .str (some t.HostName)),
    ("Port", .int32 t.Port)]

theorem LeaderAndIsrLiveLeader4.conforms {v : Int16} (hv : 0 ≤ v) (t : LeaderAndIsrLiveLeader4) :
    Protocol.LeaderAndIsrLiveLeader.wire false v (LeaderAndIsrLiveLeader4.val t) = LeaderAndIsrLiveLeader4.wire v t :=
  Writes.eq <|
    Writes.all hv (Protocol.wire_int32 v t.BrokerId) <|
    Writes.all hv (Protocol.wire_string v t.HostName) <|
    Writes.all hv (Protocol.wire_int32 v t.Port) <|
    Writes.done

/-- There is nothing that may not be nil. -/
def LeaderAndIsrLiveLeader4.Full (_v : Int16) (_t : LeaderAndIsrLiveLeader4) : Prop := True

theorem LeaderAndIsrLiveLeader4.valid {v : Int16} (_hv : 0 ≤ v) (t : LeaderAndIsrLiveLeader4) (h : t.Fits v) (_hf : t.Full v) :
    Protocol.LeaderAndIsrLiveLeader.Valid true v (LeaderAndIsrLiveLeader4.val t) :=
  Valids.all trivial <|
    Valids.all (valid_string (h.HostName)) <|
    Valids.all trivial <|
    trivial

/-- `LeaderAndIsrRequest` as a value of the protocol. -/
def LeaderAndIsrRequest.val (t : LeaderAndIsrRequest) : Val :=
  .struct [("ControllerId", .int32 t.ControllerId),
    ("ControllerEpoch", .int32 t.ControllerEpoch),
    ("BrokerEpoch", .int64 t.BrokerEpoch),
    ("UngroupedPartitionStates", ofStructs LeaderAndIsrPartitionState4.val t.UngroupedPartitionStates),
    ("TopicStates", ofStructs LeaderAndIsrTopicState4.val t.TopicStates),
    ("LiveLeaders", ofStructs LeaderAndIsrLiveLeader4.val t.LiveLeaders)]

theorem LeaderAndIsrRequest.conforms {v : Int16} (hv : 0 ≤ v) (t : LeaderAndIsrRequest) :
    Protocol.LeaderAndIsrRequest.wire false v (LeaderAndIsrRequest.val t) = LeaderAndIsrRequest.wire v t :=
  Writes.eq <|
    Writes.all hv (Protocol.wire_int32 v t.ControllerId) <|
    Writes.all hv (Protocol.wire_int32 v t.ControllerEpoch) <|
    Writes.since (Protocol.wire_int64 v t.BrokerEpoch) <|
    Writes.between (Protocol.wire_structs v (LeaderAndIsrPartitionState4.conforms hv) t.UngroupedPartitionStates) <|
    Writes.since (Protocol.wire_structs v (LeaderAndIsrTopicState4.conforms hv) t.TopicStates) <|
    Writes.all hv (Protocol.wire_structs v (LeaderAndIsrLiveLeader4.conforms hv) t.LiveLeaders) <|
    Writes.done

/-- No slice of scalars is nil where the protocol has no null. -/
structure LeaderAndIsrRequest.Full (v : Int16) (t : LeaderAndIsrRequest) : Prop where
  UngroupedPartitionStates : v ≥ 0 ∧ v ≤ 1 → FullAll (LeaderAndIsrPartitionState4.Full v) t.UngroupedPartitionStates
  TopicStates : v ≥ 2 → FullAll (LeaderAndIsrTopicState4.Full v) t.TopicStates

theorem LeaderAndIsrRequest.valid {v : Int16} (hv : 0 ≤ v) (t : LeaderAndIsrRequest) (h : t.Fits v) (hf : t.Full v) :
    Protocol.LeaderAndIsrRequest.Valid true v (LeaderAndIsrRequest.val t) :=
  Valids.all trivial <|
    Valids.all trivial <|
    Valids.since (fun _ => trivial) <|
    Valids.between (fun hc => valid_structs (fun y h hf => LeaderAndIsrPartitionState4.valid hv y h hf) (h.UngroupedPartitionStates hc) (hf.UngroupedPartitionStates hc)) <|
    Valids.since (fun hc => valid_structs (fun y h hf => LeaderAndIsrTopicState4.valid hv y h hf) (h.TopicStates hc) (hf.TopicStates hc)) <|
    Valids.all (valid_structs (fun y h hf => LeaderAndIsrLiveLeader4.valid hv y h hf) (h.LiveLeaders) (fun _ _ => trivial)) <|
    trivial

/-- `LeaderAndIsrPartitionError4` as a value of the protocol. -/
def LeaderAndIsrPartitionError4.val (t : LeaderAndIsrPartitionError4) : Val :=
  .struct [("TopicName", .str (some t.TopicName)),
    ("PartitionIndex", .int32 t.PartitionIndex),
    ("ErrorCode", .int16 t.ErrorCode)]

theorem LeaderAndIsrPartitionError4.conforms {v : Int16} (hv : 0 ≤ v) (t : LeaderAndIsrPartitionError4) :
    Protocol.LeaderAndIsrPartitionError.wire false v (LeaderAndIsrPartitionError4.val t) = LeaderAndIsrPartitionError4.wire v t :=
  Writes.eq <|
    Writes.all hv (Protocol.wire_string v t.TopicName) <|
    Writes.all hv (Protocol.wire_int32 v t.PartitionIndex) <|
    Writes.all hv (Protocol.wire_int16 v t.ErrorCode) <|
    Writes.done

/-- There is nothing that may not be nil. -/
def LeaderAndIsrPartitionError4.Full (_v : Int16) (_t : LeaderAndIsrPartitionError4) : Prop := True

theorem LeaderAndIsrPartitionError4.valid {v : Int16} (_hv : 0 ≤ v) (t : LeaderAndIsrPartitionError4) (h : t.Fits v) (_hf : t.Full v) :
    Protocol.LeaderAndIsrPartitionError.Valid true v (LeaderAndIsrPartitionError4.val t) :=
  Valids.all (valid_string (h.TopicName)) <|
    Valids.all trivial <|
    Valids.all trivial <|
    trivial

/-- What `LeaderAndIsrPartitionError4` holds after reading the value `x` into `t0`. -/
def LeaderAndIsrPartitionError4.of (_v : Int16) (x : Val) (_t0 : LeaderAndIsrPartitionError4) : LeaderAndIsrPartitionError4 :=
  { TopicName := (x.get "TopicName").toStr,
    PartitionIndex := (x.get "PartitionIndex").toInt32,
    ErrorCode := (x.get "ErrorCode").toInt16 }

theorem LeaderAndIsrPartitionError4.decodes {v : Int16} (hv : 0 ≤ v) (x : Val) (h : Protocol.LeaderAndIsrPartitionError.Valid false v x) (t0 : LeaderAndIsrPartitionError4) :
    Reads (LeaderAndIsrPartitionError4.decode v t0) (Protocol.LeaderAndIsrPartitionError.wire false v x) (LeaderAndIsrPartitionError4.of v x t0) :=
  Reads.congr (((Step.field (set := fun (t : LeaderAndIsrPartitionError4) x => { t with TopicName := x }) (read_string (Fields.Valid.head (h) hv)))
      |>.andThen (Step.field (set := fun (t : LeaderAndIsrPartitionError4) x => { t with PartitionIndex := x }) (read_int32 (Fields.Valid.head (Fields.Valid.tail h) hv)))
      |>.andThen (Step.field (set := fun (t : LeaderAndIsrPartitionError4) x => { t with ErrorCode := x }) (read_int16 (Fields.Valid.head (Fields.Valid.tail (Fields.Valid.tail h)) hv))) : Step _ _ _) t0)
    (Writes.eq (fs := Protocol.LeaderAndIsrPartitionError) (v := v) (x := x) <| Writes.all hv rfl <| Writes.all hv rfl <| Writes.all hv rfl <| Writes.done).symm rfl

theorem LeaderAndIsrPartitionError4.parses {v : Int16} (hv : 0 ≤ v) (t0 : LeaderAndIsrPartitionError4) :
    Parses (LeaderAndIsrPartitionError4.decode v t0) ((Ty.struct Protocol.LeaderAndIsrPartitionError).parse v) (fun x => LeaderAndIsrPartitionError4.of v x t0) :=
  FParses.parses (fs := Protocol.LeaderAndIsrPartitionError)
    (FParses.field hv (set := fun (t : LeaderAndIsrPartitionError4) x => { t with TopicName := x }) par_string <|
    FParses.field hv (set := fun (t : LeaderAndIsrPartitionError4) x => { t with PartitionIndex := x }) par_int32 <|
    FParses.field hv (set := fun (t : LeaderAndIsrPartitionError4) x => { t with ErrorCode := x }) par_int16 <|
    FParses.done)
    (by simp only [LeaderAndIsrPartitionError4.decode, Dec.andThen_assoc, Dec.andThen_nop]) (Fields.distinct_nodup _ (by decide +kernel)) (fun _ _ => rfl) t0

theorem LeaderAndIsrPartitionError4.shown {v : Int16} (hv : 0 ≤ v) (x : Val) (h : Protocol.LeaderAndIsrPartitionError.Typed v x) :
    Protocol.LeaderAndIsrPartitionError.shows v x (LeaderAndIsrPartitionError4.val (LeaderAndIsrPartitionError4.of v x {})) = true :=
  Shows.all hv (show_string (Fields.Typed.head (h) hv)) <|
    Shows.all hv (show_int32 (Fields.Typed.head (Fields.Typed.tail h) hv)) <|
    Shows.all hv (show_int16 (Fields.Typed.head (Fields.Typed.tail (Fields.Typed.tail h)) hv)) <|
    rfl

/-- `LeaderAndIsrResponse` as a value of the protocol. -/
def LeaderAndIsrResponse.val (t : LeaderAndIsrResponse) : Val :=
  .struct [("ErrorCode", .int16 t.ErrorCode),
    ("PartitionErrors", ofStructs LeaderAndIsrPartitionError4.val t.PartitionErrors)]

theorem LeaderAndIsrResponse.conforms {v : Int16} (hv : 0 ≤ v) (t : LeaderAndIsrResponse) :
    Protocol.LeaderAndIsrResponse.wire false v (LeaderAndIsrResponse.val t) = LeaderAndIsrResponse.wire v t :=
  Writes.eq <|
    Writes.all hv (Protocol.wire_int16 v t.ErrorCode) <|
    Writes.all hv (Protocol.wire_structs v (LeaderAndIsrPartitionError4.conforms hv) t.PartitionErrors) <|
    Writes.done

/-- There is nothing that may not be nil. -/
def LeaderAndIsrResponse.Full (_v : Int16) (_t : LeaderAndIsrResponse) : Prop := True

theorem LeaderAndIsrResponse.valid {v : Int16} (hv : 0 ≤ v) (t : LeaderAndIsrResponse) (h : t.Fits v) (_hf : t.Full v) :
    Protocol.LeaderAndIsrResponse.Valid true v (LeaderAndIsrResponse.val t) :=
  Valids.all trivial <|
    Valids.all (valid_structs (fun y h hf => LeaderAndIsrPartitionError4.valid hv y h hf) (h.PartitionErrors) (fun _ _ => trivial)) <|
    trivial

/-- What `LeaderAndIsrResponse` holds after reading the value `x` into `t0`. -/
def LeaderAndIsrResponse.of (v : Int16) (x : Val) (t0 : LeaderAndIsrResponse) : LeaderAndIsrResponse :=
  { ErrorCode := (x.get "ErrorCode").toInt16,
    PartitionErrors := (x.get "PartitionErrors").toSliceOr (fun y => LeaderAndIsrPartitionError4.of v y {}) t0.PartitionErrors }

theorem LeaderAndIsrResponse.decodes {v : Int16} (hv : 0 ≤ v) (x : Val) (h : Protocol.LeaderAndIsrResponse.Valid false v x) (t0 : LeaderAndIsrResponse) :
    Reads (LeaderAndIsrResponse.decode v t0) (Protocol.LeaderAndIsrResponse.wire false v x) (LeaderAndIsrResponse.of v x t0) :=
  Reads.congr (((Step.field (set := fun (t : LeaderAndIsrResponse) x => { t with ErrorCode := x }) (read_int16 (Fields.Valid.head (h) hv)))
      |>.andThen (Step.readStructs (get := fun (t : LeaderAndIsrResponse) => t.PartitionErrors) (set := fun (t : LeaderAndIsrResponse) x => { t with PartitionErrors := x }) (fun y hy => LeaderAndIsrPartitionError4.decodes hv y hy {}) (Fields.Valid.head (Fields.Valid.tail h) hv)) : Step _ _ _) t0)
    (Writes.eq (fs := Protocol.LeaderAndIsrResponse) (v := v) (x := x) <| Writes.all hv rfl <| Writes.all hv rfl <| Writes.done).symm rfl

theorem LeaderAndIsrResponse.parses {v : Int16} (hv : 0 ≤ v) (t0 : LeaderAndIsrResponse) :
    Parses (LeaderAndIsrResponse.decode v t0) ((Ty.struct Protocol.LeaderAndIsrResponse).parse v) (fun x => LeaderAndIsrResponse.of v x t0) :=
  FParses.parses (fs := Protocol.LeaderAndIsrResponse)
    (FParses.field hv (set := fun (t : LeaderAndIsrResponse) x => { t with ErrorCode := x }) par_int16 <|
    FParses.structs hv (get := fun (t : LeaderAndIsrResponse) => t.PartitionErrors) (set := fun (t : LeaderAndIsrResponse) x => { t with PartitionErrors := x }) (LeaderAndIsrPartitionError4.parses hv {}) <|
    FParses.done)
    (by simp only [LeaderAndIsrResponse.decode, Dec.andThen_nop]) (Fields.distinct_nodup _ (by decide +kernel)) (fun _ _ => rfl) t0

theorem LeaderAndIsrResponse.shown {v : Int16} (hv : 0 ≤ v) (x : Val) (h : Protocol.LeaderAndIsrResponse.Typed v x) :
    Protocol.LeaderAndIsrResponse.shows v x (LeaderAndIsrResponse.val (LeaderAndIsrResponse.of v x {})) = true :=
  Shows.all hv (show_int16 (Fields.Typed.head (h) hv)) <|
    Shows.all hv (show_structs (f := LeaderAndIsrPartitionError4.val) (g := fun y => LeaderAndIsrPartitionError4.of v y {}) (fun y hy => LeaderAndIsrPartitionError4.shown hv y hy) (Fields.Typed.head (Fields.Typed.tail h) hv)) <|
    rfl

end Kafka.Msg
