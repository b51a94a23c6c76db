import Verif.Protocol.ParseLemmas
import Verif.Gen.Spec.ListOffset
/-!
Generated by tools/gen_protocol.py: the ListOffset messages are written and read as the protocol says.
-/
namespace Kafka.Msg

open Protocol

/-- `ListOffsetPartition2` as a value of the protocol. -/
def ListOffsetPartition2.val (t : ListOffsetPartition2) : Val :=
  .struct [("PartitionIndex", .int32 t.PartitionIndex),
    ("CurrentLeaderEpoch", .int32 t.CurrentLeaderEpoch),
    ("Timestamp", .int64 t.Timestamp),
    ("MaxNumOffsets", .int32 t.MaxNumOffsets)]

theorem ListOffsetPartition2.conforms {v : Int16} (hv : 0 ≤ v) (t : ListOffsetPartition2) :
    Protocol.ListOffsetPartition.wire false v (ListOffsetPartition2.val t) = ListOffsetPartition2.wire v t :=
  Writes.eq <|
    Writes.all hv (Protocol.wire_int32 v t.PartitionIndex) <|
    Writes.since (Protocol.wire_int32 v t.CurrentLeaderEpoch) <|
    Writes.all hv (Protocol.wire_int64 v t.Timestamp) <|
    Writes.between (Protocol.wire_int32 v t.MaxNumOffsets) <|
    Writes.done

/-- There is nothing that may not be nil. -/
def ListOffsetPartition2.Full (_v : Int16) (_t : ListOffsetPartition2) : Prop := True

theorem ListOffsetPartition2.valid {v : Int16} (_hv : 0 ≤ v) (t : ListOffsetPartition2) (_h : t.Fits v) (_hf : t.Full v) :
    Protocol.ListOffsetPartition.Valid true v (ListOffsetPartition2.val t) :=
  Valids.all trivial <|
    Valids.since (fun _ => trivial) <|
    Valids.all trivial <|
    Valids.between (fun _ => trivial) <|
    trivial

/-- `ListOffsetTopic2` as a value of the protocol. -/
def ListOffsetTopic2.val (t : ListOffsetTopic2) : Val :=
  .struct [("Name", .str (some t.Name)),
    ("Partitions", ofStructs ListOffsetPartition2.val t.Partitions)]

theorem ListOffsetTopic2.conforms {v : Int16} (hv : 0 ≤ v) (t : ListOffsetTopic2) :
    Protocol.ListOffsetTopic.wire false v (ListOffsetTopic2.val t) = ListOffsetTopic2.wire v t :=
  Writes.eq <|
    Writes.all hv (Protocol.wire_string v t.Name) <|
    Writes.all hv (Protocol.wire_structs v (ListOffsetPartition2.conforms hv) t.Partitions) <|
    Writes.done

/-- There is nothing that may not be nil. -/
def ListOffsetTopic2.Full (_v : Int16) (_t : ListOffsetTopic2) : Prop := True

theorem ListOffsetTopic2.valid {v : Int16} (hv : 0 ≤ v) (t : ListOffsetTopic2) (h : t.Fits v) (_hf : t.Full v) :
    Protocol.ListOffsetTopic.Valid true v (ListOffsetTopic2.val t) :=
  Valids.all (valid_string (h.Name)) <|
    Valids.all (valid_structs (fun y h hf => ListOffsetPartition2.valid hv y h hf) (h.Partitions) (fun _ _ => trivial)) <|
    trivial

/-- `ListOffsetRequest` as a value of the protocol. -/
def ListOffsetRequest.val (t : ListOffsetRequest) : Val :=
  .struct [("ReplicaId", .int32 t.ReplicaId),
    ("IsolationLevel", .int8 t.IsolationLevel),
    ("Topics", ofStructs ListOffsetTopic2.val t.Topics)]

theorem ListOffsetRequest.conforms {v : Int16} (hv : 0 ≤ v) (t : ListOffsetRequest) :
    Protocol.ListOffsetRequest.wire false v (ListOffsetRequest.val t) = ListOffsetRequest.wire v t :=
  Writes.eq <|
    Writes.all hv (Protocol.wire_int32 v t.ReplicaId) <|
    Writes.since (Protocol.wire_int8 v t.IsolationLevel) <|
    Writes.all hv (Protocol.wire_structs v (ListOffsetTopic2.conforms hv) t.Topics) <|
    Writes.done

/-- There is nothing that may not be nil. -/
def ListOffsetRequest.Full (_v : Int16) (_t : ListOffsetRequest) : Prop := True

theorem ListOffsetRequest.valid {v : Int16} (hv : 0 ≤ v) (t : ListOffsetRequest) (h : t.Fits v) (_hf : t.Full v) :
    Protocol.ListOffsetRequest.Valid true v (ListOffsetRequest.val t) :=
  Valids.all trivial <|
    Valids.since (fun _ => trivial) <|
    Valids.all (valid_structs (fun y h hf => ListOffsetTopic2.valid hv y h hf) (h.Topics) (fun _ _ => trivial)) <|
    trivial

/-- `ListOffsetPartitionResponse2` as a value of the protocol. -/
def ListOffsetPartitionResponse2.val (t : ListOffsetPartitionResponse2) : Val :=
  .struct [("PartitionIndex", .int32 t.PartitionIndex),
    ("ErrorCode", .int16 t.ErrorCode),
    ("OldStyleOffsets", ofScalars .int64 t.OldStyleOffsets),
    ("Timestamp", .int64 t.Timestamp),
    ("Offset", .int64 t.Offset),
    ("LeaderEpoch", .int32 t.LeaderEpoch)]

theorem ListOffsetPartitionResponse2.conforms {v : Int16} (hv : 0 ≤ v) (t : ListOffsetPartitionResponse2) :
    Protocol.ListOffsetPartitionResponse.wire false v (ListOffsetPartitionResponse2.val t) = ListOffsetPartitionResponse2.wire v t :=
  Writes.eq <|
    Writes.all hv (Protocol.wire_int32 v t.PartitionIndex) <|
    Writes.all hv (Protocol.wire_int16 v t.ErrorCode) <|
    Writes.between (Protocol.wire_int64Array v t.OldStyleOffsets) <|
    Writes.since (Protocol.wire_int64 v t.Timestamp) <|
    Writes.since (Protocol.wire_int64 v t.Offset) <|
    Writes.since (Protocol.wire_int32 v t.LeaderEpoch) <|
    Writes.done

/-- No slice of scalars is nil where the protocol has no null. -/
structure ListOffsetPartitionResponse2.Full (v : Int16) (t : ListOffsetPartitionResponse2) : Prop where
  OldStyleOffsets : v ≥ 0 ∧ v ≤ 0 → t.OldStyleOffsets.NotNil

theorem ListOffsetPartitionResponse2.valid {v : Int16} (_hv : 0 ≤ v) (t : ListOffsetPartitionResponse2) (h : t.Fits v) (hf : t.Full v) :
    Protocol.ListOffsetPartitionResponse.Valid true v (ListOffsetPartitionResponse2.val t) :=
  Valids.all trivial <|
    Valids.all trivial <|
    Valids.between (fun hc => valid_int64Array (h.OldStyleOffsets hc) (.inr (hf.OldStyleOffsets hc))) <|
    Valids.since (fun _ => trivial) <|
    Valids.since (fun _ => trivial) <|
    Valids.since (fun _ => trivial) <|
    trivial

/-- What `ListOffsetPartitionResponse2` holds after reading the value `x` into `t0`. -/
def ListOffsetPartitionResponse2.of (v : Int16) (x : Val) (t0 : ListOffsetPartitionResponse2) : ListOffsetPartitionResponse2 :=
  { PartitionIndex := (x.get "PartitionIndex").toInt32,
    ErrorCode := (x.get "ErrorCode").toInt16,
    OldStyleOffsets := if v ≥ 0 ∧ v ≤ 0 then (x.get "OldStyleOffsets").toSlice Val.toInt64 else t0.OldStyleOffsets,
    Timestamp := if v ≥ 1 then (x.get "Timestamp").toInt64 else t0.Timestamp,
    Offset := if v ≥ 1 then (x.get "Offset").toInt64 else t0.Offset,
    LeaderEpoch := if v ≥ 4 then (x.get "LeaderEpoch").toInt32 else t0.LeaderEpoch }

theorem ListOffsetPartitionResponse2.decodes {v : Int16} (hv : 0 ≤ v) (x : Val) (h : Protocol.ListOffsetPartitionResponse.Valid false v x) (t0 : ListOffsetPartitionResponse2) :
    Reads (ListOffsetPartitionResponse2.decode v t0) (Protocol.ListOffsetPartitionResponse.wire false v x) (ListOffsetPartitionResponse2.of v x t0) :=
  Reads.congr (((Step.field (set := fun (t : ListOffsetPartitionResponse2) x => { t with PartitionIndex := x }) (read_int32 (Fields.Valid.head (h) hv)))
      |>.andThen (Step.field (set := fun (t : ListOffsetPartitionResponse2) x => { t with ErrorCode := x }) (read_int16 (Fields.Valid.head (Fields.Valid.tail h) hv)))
      |>.andThen (Step.optField (c := v ≥ 0 ∧ v ≤ 0) (set := fun (t : ListOffsetPartitionResponse2) x => { t with OldStyleOffsets := x }) (·.OldStyleOffsets) (fun _ => rfl) fun hc => read_int64Array (Fields.Valid.head (Fields.Valid.tail (Fields.Valid.tail h)) hc))
      |>.andThen (Step.optField (c := v ≥ 1) (set := fun (t : ListOffsetPartitionResponse2) x => { t with Timestamp := x }) (·.Timestamp) (fun _ => rfl) fun hc => read_int64 (Fields.Valid.head (Fields.Valid.tail (Fields.Valid.tail (Fields.Valid.tail h))) hc))
      |>.andThen (Step.optField (c := v ≥ 1) (set := fun (t : ListOffsetPartitionResponse2) x => { t with Offset := x }) (·.Offset) (fun _ => rfl) fun hc => read_int64 (Fields.Valid.head (Fields.Valid.tail (Fields.Valid.tail (Fields.Valid.tail (Fields.Valid.tail h)))) hc))
      |>.andThen (Step.optField (c := v ≥ 4) (set := fun (t : ListOffsetPartitionResponse2) x => { t with LeaderEpoch := x }) (·.LeaderEpoch) (fun _ => rfl) fun hc => read_int32 (Fields.Valid.head (Fields.Valid.tail (Fields.Valid.tail (Fields.Valid.tail (Fields.Valid.tail (Fields.Valid.tail h))))) hc)) : Step _ _ _) t0)
    (Writes.eq (fs := Protocol.ListOffsetPartitionResponse) (v := v) (x := x) <| Writes.all hv rfl <| Writes.all hv rfl <| Writes.between rfl <| Writes.since rfl <| Writes.since rfl <| Writes.since rfl <| Writes.done).symm rfl

theorem ListOffsetPartitionResponse2.parses {v : Int16} (hv : 0 ≤ v) (t0 : ListOffsetPartitionResponse2) :
    Parses (ListOffsetPartitionResponse2.decode v t0) ((Ty.struct Protocol.ListOffsetPartitionResponse).parse v) (fun x => ListOffsetPartitionResponse2.of v x t0) :=
  FParses.parses (fs := Protocol.ListOffsetPartitionResponse)
    (FParses.field hv (set := fun (t : ListOffsetPartitionResponse2) x => { t with PartitionIndex := x }) par_int32 <|
    FParses.field hv (set := fun (t : ListOffsetPartitionResponse2) x => { t with ErrorCode := x }) par_int16 <|
    FParses.optField (c := v ≥ 0 ∧ v ≤ 0) Iff.rfl (set := fun (t : ListOffsetPartitionResponse2) x => { t with OldStyleOffsets := x }) (·.OldStyleOffsets) (fun _ => rfl) par_int64Array <|
    FParses.optField (c := v ≥ 1) Iff.rfl (set := fun (t : ListOffsetPartitionResponse2) x => { t with Timestamp := x }) (·.Timestamp) (fun _ => rfl) par_int64 <|
    FParses.optField (c := v ≥ 1) Iff.rfl (set := fun (t : ListOffsetPartitionResponse2) x => { t with Offset := x }) (·.Offset) (fun _ => rfl) par_int64 <|
    FParses.optField (c := v ≥ 4) Iff.rfl (set := fun (t : ListOffsetPartitionResponse2) x => { t with LeaderEpoch := x }) (·.LeaderEpoch) (fun _ => rfl) par_int32 <|
    FParses.done)
    (by simp only [ListOffsetPartitionResponse2.decode, Dec.andThen_assoc, Dec.andThen_nop]) (Fields.distinct_nodup _ (by decide +kernel)) (fun _ _ => rfl) t0

theorem ListOffsetPartitionResponse2.shown {v : Int16} (hv : 0 ≤ v) (x : Val) (h : Protocol.ListOffsetPartitionResponse.Typed v x) :
    Protocol.ListOffsetPartitionResponse.shows v x (ListOffsetPartitionResponse2.val (ListOffsetPartitionResponse2.of v x {})) = true :=
  Shows.all hv (show_int32 (Fields.Typed.head (h) hv)) <|
    Shows.all hv (show_int16 (Fields.Typed.head (Fields.Typed.tail h) hv)) <|
    Shows.between (ofScalars .int64) rfl (fun hc => show_int64Array (Fields.Typed.head (Fields.Typed.tail (Fields.Typed.tail h)) hc)) rfl <|
    Shows.since (.int64) rfl (fun hc => show_int64 (Fields.Typed.head (Fields.Typed.tail (Fields.Typed.tail (Fields.Typed.tail h))) hc)) rfl <|
    Shows.since (.int64) rfl (fun hc => show_int64 (Fields.Typed.head (Fields.Typed.tail (Fields.Typed.tail (Fields.Typed.tail (Fields.Typed.tail h)))) hc)) rfl <|
    Shows.since (.int32) rfl (fun hc => show_int32 (Fields.Typed.head (Fields.Typed.tail (Fields.Typed.tail (Fields.Typed.tail (Fields.Typed.tail (Fields.Typed.tail h))))) hc)) rfl <|
    rfl

/-- `ListOffsetTopicResponse2` as a value of the protocol. -/
def ListOffsetTopicResponse2.val (t : ListOffsetTopicResponse2) : Val :=
  .struct [("Name", .str (some t.Name)),
    ("Partitions", ofStructs ListOffsetPartitionResponse2.val t.Partitions)]

theorem ListOffsetTopicResponse2.conforms {v : Int16} (hv : 0 ≤ v) (t : ListOffsetTopicResponse2) :
    Protocol.ListOffsetTopicResponse.wire false v (ListOffsetTopicResponse2.val t) = ListOffsetTopicResponse2.wire v t :=
  Writes.eq <|
    Writes.all hv (Protocol.wire_string v t.Name) <|
    Writes.all hv (Protocol.wire_structs v (ListOffsetPartitionResponse2.conforms hv) t.Partitions) <|
    Writes.done

/-- No slice of scalars is nil where the protocol has no null. -/
structure ListOffsetTopicResponse2.Full (v : Int16) (t : ListOffsetTopicResponse2) : Prop where
  Partitions : FullAll (ListOffsetPartitionResponse2.Full v) t.Partitions

theorem ListOffsetTopicResponse2.valid {v : Int16} (hv : 0 ≤ v) (t : ListOffsetTopicResponse2) (h : t.Fits v) (hf : t.Full v) :
    Protocol.ListOffsetTopicResponse.Valid true v (ListOffsetTopicResponse2.val t) :=
  Valids.all (valid_string (h.Name)) <|
    Valids.all (valid_structs (fun y h hf => ListOffsetPartitionResponse2.valid hv y h hf) (h.Partitions) (hf.Partitions)) <|
    trivial

/-- What `ListOffsetTopicResponse2` holds after reading the value `x` into `t0`. -/
def ListOffsetTopicResponse2.of (v : Int16) (x : Val) (t0 : ListOffsetTopicResponse2) : ListOffsetTopicResponse2 :=
  { Name := (x.get "Name").toStr,
    Partitions := (x.get "Partitions").toSliceOr (fun y => ListOffsetPartitionResponse2.of v y {}) t0.Partitions }

theorem ListOffsetTopicResponse2.decodes {v : Int16} (hv : 0 ≤ v) (x : Val) (h : Protocol.ListOffsetTopicResponse.Valid false v x) (t0 : ListOffsetTopicResponse2) :
    Reads (ListOffsetTopicResponse2.decode v t0) (Protocol.ListOffsetTopicResponse.wire false v x) (ListOffsetTopicResponse2.of v x t0) :=
  Reads.congr (((Step.field (set := fun (t : ListOffsetTopicResponse2) x => { t with Name := x }) (read_string (Fields.Valid.head (h) hv)))
      |>.andThen (Step.readStructs (get := fun (t : ListOffsetTopicResponse2) => t.Partitions) (set := fun (t : ListOffsetTopicResponse2) x => { t with Partitions := x }) (fun y hy => ListOffsetPartitionResponse2.decodes hv y hy {}) (Fields.Valid.head (Fields.Valid.tail h) hv)) : Step _ _ _) t0)
    (Writes.eq (fs := Protocol.ListOffsetTopicResponse) (v := v) (x := x) <| Writes.all hv rfl <| Writes.all hv rfl <| Writes.done).symm rfl

theorem ListOffsetTopicResponse2.parses {v : Int16} (hv : 0 ≤ v) (t0 : ListOffsetTopicResponse2) :
    Parses (ListOffsetTopicResponse2.decode v t0) ((Ty.struct Protocol.ListOffsetTopicResponse).parse v) (fun x => ListOffsetTopicResponse2.of v x t0) :=
  FParses.parses (fs := Protocol.ListOffsetTopicResponse)
    (FParses.field hv (set := fun (t : ListOffsetTopicResponse2) x => { t with Name := x }) par_string <|
    FParses.structs hv (get := fun (t : ListOffsetTopicResponse2) => t.Partitions) (set := fun (t : ListOffsetTopicResponse2) x => { t with Partitions := x }) (ListOffsetPartitionResponse2.parses hv {}) <|
    FParses.done)
    (by simp only [ListOffsetTopicResponse2.decode, Dec.andThen_nop]) (Fields.distinct_nodup _ (by decide +kernel)) (fun _ _ => rfl) t0

theorem ListOffsetTopicResponse2.shown {v : Int16} (hv : 0 ≤ v) (x : Val) (h : Protocol.ListOffsetTopicResponse.Typed v x) :
    Protocol.ListOffsetTopicResponse.shows v x (ListOffsetTopicResponse2.val (ListOffsetTopicResponse2.of v x {})) = true :=
  Shows.all hv (show_string (Fields.Typed.head (h) hv)) <|
    Shows.all hv (show_structs (f := ListOffsetPartitionResponse2.val) (g := fun y => ListOffsetPartitionResponse2.of v y {}) (fun y hy => ListOffsetPartitionResponse2.shown hv y hy) (Fields.Typed.head (Fields.Typed.tail h) hv)) <|
    rfl

/-- `ListOffsetResponse` as a value of the protocol. -/
def ListOffsetResponse.val (t : ListOffsetResponse) : Val :=
  .struct [("ThrottleTimeMs", .int32 t.ThrottleTimeMs),
    ("Topics", ofStructs ListOffsetTopicResponse2.val t.Topics)]

theorem ListOffsetResponse.conforms {v : Int16} (hv : 0 ≤ v) (t : ListOffsetResponse) :
    Protocol.ListOffsetResponse.wire false v (ListOffsetResponse.val t) = ListOffsetResponse.wire v t :=
  Writes.eq <|
    Writes.since (Protocol.wire_int32 v t.ThrottleTimeMs) <|
    Writes.all hv (Protocol.wire_structs v (ListOffsetTopicResponse2.conforms hv) t.Topics) <|
    Writes.done

/-- No slice of scalars is nil where the protocol has no null. -/
structure ListOffsetResponse.Full (v : Int16) (t : ListOffsetResponse) : Prop where
  Topics : FullAll (ListOffsetTopicResponse2.Full v) t.Topics

theorem ListOffsetResponse.valid {v : Int16} (hv : 0 ≤ v) (t : ListOffsetResponse) (h : t.Fits v) (hf : t.Full v) :
    Protocol.ListOffsetResponse.Valid true v (ListOffsetResponse.val t) :=
  Valids.since (fun _ => trivial) <|
    Valids.all (valid_structs (fun y h hf => ListOffsetTopicResponse2.valid hv y h hf) (h.Topics) (hf.Topics)) <|
    trivial

/-- What `ListOffsetResponse` holds after reading the value `x` into `t0`. -/
def ListOffsetResponse.of (v : Int16) (x : Val) (t0 : ListOffsetResponse) : ListOffsetResponse :=
  { ThrottleTimeMs := if v ≥ 2 then (x.get "ThrottleTimeMs").toInt32 else t0.ThrottleTimeMs,
    Topics := (x.get "Topics").toSliceOr (fun y => ListOffsetTopicResponse2.of v y {}) t0.Topics }

theorem ListOffsetResponse.decodes {v : Int16} (hv : 0 ≤ v) (x : Val) (h : Protocol.ListOffsetResponse.Valid false v x) (t0 : ListOffsetResponse) :
    Reads (ListOffsetResponse.decode v t0) (Protocol.ListOffsetResponse.wire false v x) (ListOffsetResponse.of v x t0) :=
  Reads.congr (((Step.optField (c := v ≥ 2) (set := fun (t : ListOffsetResponse) x => { t with ThrottleTimeMs := x }) (·.ThrottleTimeMs) (fun _ => rfl) fun hc => read_int32 (Fields.Valid.head (h) hc))
      |>.andThen (Step.readStructs (get := fun (t : ListOffsetResponse) => t.Topics) (set := fun (t : ListOffsetResponse) x => { t with Topics := x }) (fun y hy => ListOffsetTopicResponse2.decodes hv y hy {}) (Fields.Valid.head (Fields.Valid.tail h) hv)) : Step _ _ _) t0)
    (Writes.eq (fs := Protocol.ListOffsetResponse) (v := v) (x := x) <| Writes.since rfl <| Writes.all hv rfl <| Writes.done).symm rfl

theorem ListOffsetResponse.parses {v : Int16} (hv : 0 ≤ v) (t0 : ListOffsetResponse) :
    Parses (ListOffsetResponse.decode v t0) ((Ty.struct Protocol.ListOffsetResponse).parse v) (fun x => ListOffsetResponse.of v x t0) :=
  FParses.parses (fs := Protocol.ListOffsetResponse)
    (FParses.optField (c := v ≥ 2) Iff.rfl (set := fun (t : ListOffsetResponse) x => { t with ThrottleTimeMs := x }) (·.ThrottleTimeMs) (fun _ => rfl) par_int32 <|
    FParses.structs hv (get := fun (t : ListOffsetResponse) => t.Topics) (set := fun (t : ListOffsetResponse) x => { t with Topics := x }) (ListOffsetTopicResponse2.parses hv {}) <|
    FParses.done)
    (by simp only [ListOffsetResponse.decode, Dec.andThen_nop]) (Fields.distinct_nodup _ (by decide +kernel)) (fun _ _ => rfl) t0

theorem ListOffsetResponse.shown {v : Int16} (hv : 0 ≤ v) (x : Val) (h : Protocol.ListOffsetResponse.Typed v x) :
    Protocol.ListOffsetResponse.shows v x (ListOffsetResponse.val (ListOffsetResponse.of v x {})) = true :=
  Shows.since (.int32) rfl (fun hc => show_int32 (Fields.Typed.head (h) hc)) rfl <|
    Shows.all hv (show_structs (f := ListOffsetTopicResponse2.val) (g := fun y => ListOffsetTopicResponse2.of v y {}) (fun y hy => ListOffsetTopicResponse2.shown hv y hy) (Fields.Typed.head (Fields.Typed.tail h) hv)) <|
    rfl

end Kafka.Msg
