import Verif.Protocol.ParseLemmas
import Verif.Gen.Spec.StopReplica
/-!
Generated by tools/gen_protocol.py: the StopReplica messages are written and read as the protocol says.
-/
namespace Kafka.Msg

open Protocol

/-- `StopReplicaPartitionV05` as a value of the protocol. -/
def StopReplicaPartitionV05.val (t : StopReplicaPartitionV05) : Val :=
  .struct [("TopicName", .str (some t.TopicName)),
    ("PartitionIndex", .int32 t.PartitionIndex)]

theorem StopReplicaPartitionV05.conforms {v : Int16} (_hv : 0 ≤ v) (t : StopReplicaPartitionV05) :
    Protocol.StopReplicaPartitionV0.wire false v (StopReplicaPartitionV05.val t) = StopReplicaPartitionV05.wire v t :=
  Writes.eq <|
    Writes.between (Protocol.wire_string v t.TopicName) <|
    Writes.between (Protocol.wire_int32 v t.PartitionIndex) <|
    Writes.done

/-- There is nothing that may not be nil. -/
def StopReplicaPartitionV05.Full (_v : Int16) (_t : StopReplicaPartitionV05) : Prop := True

theorem StopReplicaPartitionV05.valid {v : Int16} (_hv : 0 ≤ v) (t : StopReplicaPartitionV05) (h : t.Fits v) (_hf : t.Full v) :
    Protocol.StopReplicaPartitionV0.Valid true v (StopReplicaPartitionV05.val t) :=
  Valids.between (fun hc => valid_string (h.TopicName hc)) <|
    Valids.between (fun _ => trivial) <|
    trivial

/-- `StopReplicaTopic5` as a value of the protocol. -/
def StopReplicaTopic5.val (t : StopReplicaTopic5) : Val :=
  .struct [("Name", .str (some t.Name)),
    ("PartitionIndexes", ofScalars .int32 t.PartitionIndexes)]

theorem StopReplicaTopic5.conforms {v : Int16} (_hv : 0 ≤ v) (t : StopReplicaTopic5) :
    Protocol.StopReplicaTopic.wire false v (StopReplicaTopic5.val t) = StopReplicaTopic5.wire v t :=
  Writes.eq <|
    Writes.since (Protocol.wire_string v t.Name) <|
    Writes.since (Protocol.wire_int32Array v t.PartitionIndexes) <|
    Writes.done

/-- No slice of scalars is nil where the protocol has no null. -/
structure StopReplicaTopic5.Full (v : Int16) (t : StopReplicaTopic5) : Prop where
  PartitionIndexes : v ≥ 1 → t.PartitionIndexes.NotNil

theorem StopReplicaTopic5.valid {v : Int16} (_hv : 0 ≤ v) (t : StopReplicaTopic5) (h : t.Fits v) (hf : t.Full v) :
    Protocol.StopReplicaTopic.Valid true v (StopReplicaTopic5.val t) :=
  Valids.since (fun hc => valid_string (h.Name hc)) <|
    Valids.since (fun hc => valid_int32Array (h.PartitionIndexes hc) (.inr (hf.PartitionIndexes hc))) <|
    trivial

/-- `StopReplicaRequest` as a value of the protocol. -/
def StopReplicaRequest.val (t : StopReplicaRequest) : Val :=
  .struct [("ControllerId", .int32 t.ControllerId),
    ("ControllerEpoch", .int32 t.ControllerEpoch),
    ("BrokerEpoch", .int64 t.BrokerEpoch),
    ("DeletePartitions", .bool t.DeletePartitions),
    ("UngroupedPartitions", ofStructs StopReplicaPartitionV05.val t.UngroupedPartitions),
    ("Topics", ofStructs StopReplicaTopic5.val t.Topics)]

theorem StopReplicaRequest.conforms {v : Int16} (hv : 0 ≤ v) (t : StopReplicaRequest) :
    Protocol.StopReplicaRequest.wire false v (StopReplicaRequest.val t) = StopReplicaRequest.wire v t :=
  Writes.eq <|
    Writes.all hv (Protocol.wire_int32 v t.ControllerId) <|
    Writes.all hv (Protocol.wire_int32 v t.ControllerEpoch) <|
    Writes.since (Protocol.wire_int64 v t.BrokerEpoch) <|
    Writes.all hv (Protocol.wire_bool v t.DeletePartitions) <|
    Writes.between (Protocol.wire_structs v (StopReplicaPartitionV05.conforms hv) t.UngroupedPartitions) <|
    Writes.since (Protocol.wire_structs v (StopReplicaTopic5.conforms hv) t.Topics) <|
    Writes.done

/-- No slice of scalars is nil where the protocol has no null. -/
structure StopReplicaRequest.Full (v : Int16) (t : StopReplicaRequest) : Prop where
  Topics : v ≥ 1 → FullAll (StopReplicaTopic5.Full v) t.Topics

theorem StopReplicaRequest.valid {v : Int16} (hv : 0 ≤ v) (t : StopReplicaRequest) (h : t.Fits v) (hf : t.Full v) :
    Protocol.StopReplicaRequest.Valid true v (StopReplicaRequest.val t) :=
  Valids.all trivial <|
    Valids.all trivial <|
    Valids.since (fun _ => trivial) <|
    Valids.all trivial <|
    Valids.between (fun hc => valid_structs (fun y h hf => StopReplicaPartitionV05.valid hv y h hf) (h.UngroupedPartitions hc) (fun _ _ => trivial)) <|
    Valids.since (fun hc => valid_structs (fun y h hf => StopReplicaTopic5.valid hv y h hf) (h.Topics hc) (hf.Topics hc)) <|
    trivial

/-- `StopReplicaPartitionError5` as a value of the protocol. -/
def StopReplicaPartitionError5.val (t : StopReplicaPartitionError5) : Val :=
  .struct [("TopicName", .str (some t.TopicName)),
    ("PartitionIndex", .int32 t.PartitionIndex),
    ("ErrorCode", .int16 t.ErrorCode)]

theorem StopReplicaPartitionError5.conforms {v : Int16} (hv : 0 ≤ v) (t : StopReplicaPartitionError5) :
    Protocol.StopReplicaPartitionError.wire false v (StopReplicaPartitionError5.val t) = StopReplicaPartitionError5.wire v t :=
  Writes.eq <|
    Writes.all hv (Protocol.wire_string v t.TopicName) <|
    Writes.all hv (Protocol.wire_int32 v t.PartitionIndex) <|
    Writes.all hv (Protocol.wire_int16 v t.ErrorCode) <|
    Writes.done

/-- There is nothing that may not be nil. -/
def StopReplicaPartitionError5.Full (_v : Int16) (_t : StopReplicaPartitionError5) : Prop := True

theorem StopReplicaPartitionError5.valid {v : Int16} (_hv : 0 ≤ v) (t : StopReplicaPartitionError5) (h : t.Fits v) (_hf : t.Full v) :
    Protocol.StopReplicaPartitionError.Valid true v (StopReplicaPartitionError5.val t) :=
  Valids.all (valid_string (h.TopicName)) <|
    Valids.all trivial <|
    Valids.all trivial <|
    trivial

/-- What `StopReplicaPartitionError5` holds after reading the value `x` into `t0`. -/
def StopReplicaPartitionError5.of (_v : Int16) (x : Val) (_t0 : StopReplicaPartitionError5) : StopReplicaPartitionError5 :=
  { TopicName := (x.get "TopicName").toStr,
    PartitionIndex := (x.get "PartitionIndex").toInt32,
    ErrorCode := (x.get "ErrorCode").toInt16 }

theorem StopReplicaPartitionError5.decodes {v : Int16} (hv : 0 ≤ v) (x : Val) (h : Protocol.StopReplicaPartitionError.Valid false v x) (t0 : StopReplicaPartitionError5) :
    Reads (StopReplicaPartitionError5.decode v t0) (Protocol.StopReplicaPartitionError.wire false v x) (StopReplicaPartitionError5.of v x t0) :=
  Reads.congr (((Step.field (set := fun (t : StopReplicaPartitionError5) x => { t with TopicName := x }) (read_string (Fields.Valid.head (h) hv)))
      |>.andThen (Step.field (set := fun (t : StopReplicaPartitionError5) x => { t with PartitionIndex := x }) (read_int32 (Fields.Valid.head (Fields.Valid.tail h) hv)))
      |>.andThen (Step.field (set := fun (t : StopReplicaPartitionError5) x => { t with ErrorCode := x }) (read_int16 (Fields.Valid.head (Fields.Valid.tail (Fields.Valid.tail h)) hv))) : Step _ _ _) t0)
    (Writes.eq (fs := Protocol.StopReplicaPartitionError) (v := v) (x := x) <| Writes.all hv rfl <| Writes.all hv rfl <| Writes.all hv rfl <| Writes.done).symm rfl

theorem StopReplicaPartitionError5.parses {v : Int16} (hv : 0 ≤ v) (t0 : StopReplicaPartitionError5) :
    Parses (StopReplicaPartitionError5.decode v t0) ((Ty.struct Protocol.StopReplicaPartitionError).parse v) (fun x => StopReplicaPartitionError5.of v x t0) :=
  FParses.parses (fs := Protocol.StopReplicaPartitionError)
    (FParses.field hv (set := fun (t : StopReplicaPartitionError5) x => { t with TopicName := x }) par_string <|
    FParses.field hv (set := fun (t : StopReplicaPartitionError5) x => { t with PartitionIndex := x }) par_int32 <|
    FParses.field hv (set := fun (t : StopReplicaPartitionError5) x => { t with ErrorCode := x }) par_int16 <|
    FParses.done)
    (by simp only [StopReplicaPartitionError5.decode, Dec.andThen_assoc, Dec.andThen_nop]) (Fields.distinct_nodup _ (by decide +kernel)) (fun _ _ => rfl) t0

theorem StopReplicaPartitionError5.shown {v : Int16} (hv : 0 ≤ v) (x : Val) (h : Protocol.StopReplicaPartitionError.Typed v x) :
    Protocol.StopReplicaPartitionError.shows v x (StopReplicaPartitionError5.val (StopReplicaPartitionError5.of v x {})) = true :=
  Shows.all hv (show_string (Fields.Typed.head (h) hv)) <|
    Shows.all hv (show_int32 (Fields.Typed.head (Fields.Typed.tail h) hv)) <|
    Shows.all hv (show_int16 (Fields.Typed.head (Fields.Typed.tail (Fields.Typed.tail h)) hv)) <|
    rfl

/-- `StopReplicaResponse` as a value of the protocol. -/
def StopReplicaResponse.val (t : StopReplicaResponse) : Val :=
  .struct [("ErrorCode", .int16 t.ErrorCode),
    ("PartitionErrors", ofStructs StopReplicaPartitionError5.val t.PartitionErrors)]

theorem StopReplicaResponse.conforms {v : Int16} (hv : 0 ≤ v) (t : StopReplicaResponse) :
    Protocol.StopReplicaResponse.wire false v (StopReplicaResponse.val t) = StopReplicaResponse.wire v t :=
  Writes.eq <|
    Writes.all hv (Protocol.wire_int16 v t.ErrorCode) <|
    Writes.all hv (Protocol.wire_structs v (StopReplicaPartitionError5.conforms hv) t.PartitionErrors) <|
    Writes.done

/-- There is nothing that may not be nil. -/
def StopReplicaResponse.Full (_v : Int16) (_t : StopReplicaResponse) : Prop := True

theorem StopReplicaResponse.valid {v : Int16} (hv : 0 ≤ v) (t : StopReplicaResponse) (h : t.Fits v) (_hf : t.Full v) :
    Protocol.StopReplicaResponse.Valid true v (StopReplicaResponse.val t) :=
  Valids.all trivial <|
    Valids.all (valid_structs (fun y h hf => StopReplicaPartitionError5.valid hv y h hf) (h.PartitionErrors) (fun _ _ => trivial)) <|
    trivial

/-- What `StopReplicaResponse` holds after reading the value `x` into `t0`. -/
def StopReplicaResponse.of (v : Int16) (x : Val) (t0 : StopReplicaResponse) : StopReplicaResponse :=
  { ErrorCode := (x.get "ErrorCode").toInt16,
    PartitionErrors := (x.get "PartitionErrors").toSliceOr (fun y => StopReplicaPartitionError5.of v y {}) t0.PartitionErrors }

theorem StopReplicaResponse.decodes {v : Int16} (hv : 0 ≤ v) (x : Val) (h : Protocol.StopReplicaResponse.Valid false v x) (t0 : StopReplicaResponse) :
    Reads (StopReplicaResponse.decode v t0) (Protocol.StopReplicaResponse.wire false v x) (StopReplicaResponse.of v x t0) :=
  Reads.congr (((Step.field (set := fun (t : StopReplicaResponse) x => { t with ErrorCode := x }) (read_int16 (Fields.Valid.head (h) hv)))
      |>.andThen (Step.readStructs (get := fun (t : StopReplicaResponse) => t.PartitionErrors) (set := fun (t : StopReplicaResponse) x => { t with PartitionErrors := x }) (fun y hy => StopReplicaPartitionError5.decodes hv y hy {}) (Fields.Valid.head (Fields.Valid.tail h) hv)) : Step _ _ _) t0)
    (Writes.eq (fs := Protocol.StopReplicaResponse) (v := v) (x := x) <| Writes.all hv rfl <| Writes.all hv rfl <| Writes.done).symm rfl

theorem StopReplicaResponse.parses {v : Int16} (hv : 0 ≤ v) (t0 : StopReplicaResponse) :
    Parses (StopReplicaResponse.decode v t0) ((Ty.struct Protocol.StopReplicaResponse).parse v) (fun x => StopReplicaResponse.of v x t0) :=
  FParses.parses (fs := Protocol.StopReplicaResponse)
    (FParses.field hv (set := fun (t : StopReplicaResponse) x => { t with ErrorCode := x }) par_int16 <|
    FParses.structs hv (get := fun (t : StopReplicaResponse) => t.PartitionErrors) (set := fun (t : StopReplicaResponse) x => { t with PartitionErrors := x }) (StopReplicaPartitionError5.parses hv {}) <|
    FParses.done)
    (by simp only [StopReplicaResponse.decode, Dec.andThen_nop]) (Fields.distinct_nodup _ (by decide +kernel)) (fun _ _ => rfl) t0

theorem StopReplicaResponse.shown {v : Int16} (hv : 0 ≤ v) (x : Val) (h : Protocol.StopReplicaResponse.Typed v x) :
    Protocol.StopReplicaResponse.shows v x (StopReplicaResponse.val (StopReplicaResponse.of v x {})) = true :=
  Shows.all hv (show_int16 (Fields.Typed.head (h) hv)) <|
    Shows.all hv (show_structs (f := StopReplicaPartitionError5.val) (g := fun y => StopReplicaPartitionError5.of v y {}) (fun y hy => StopReplicaPartitionError5.shown hv y hy) (Fields.Typed.head (Fields.Typed.tail h) hv)) <|
    rfl

end Kafka.Msg
