import Verif.Protocol.ParseLemmas
import Verif.Gen.Spec.OffsetForLeaderEpoch
/-!
Generated by tools/gen_protocol.py: the OffsetForLeaderEpoch messages are written and read as the protocol says.
-/
namespace Kafka.Msg

open Protocol

/-- `OffsetForLeaderPartition23` as a value of the protocol. -/
def OffsetForLeaderPartition23.val (t : OffsetForLeaderPartition23) : Val :=
  .struct [("PartitionIndex", .int32 t.PartitionIndex),
    ("CurrentLeaderEpoch", .int32 t.CurrentLeaderEpoch),
    ("LeaderEpoch", .int32 t.LeaderEpoch)]

theorem OffsetForLeaderPartition23.conforms {v : Int16} (hv : 0 ≤ v) (t : OffsetForLeaderPartition23) :
    Protocol.OffsetForLeaderPartition.wire false v (OffsetForLeaderPartition23.val t) = OffsetForLeaderPartition23.wire v t :=
  Writes.eq <|
    Writes.all hv (Protocol.wire_int32 v t.PartitionIndex) <|
    Writes.since (Protocol.wire_int32 v t.CurrentLeaderEpoch) <|
    Writes.all hv (Protocol.wire_int32 v t.LeaderEpoch) <|
    Writes.done

/-- There is nothing that may not be nil. -/
def OffsetForLeaderPartition23.Full (_v : Int16) (_t : OffsetForLeaderPartition23) : Prop := True

theorem OffsetForLeaderPartition23.valid {v : Int16} (_hv : 0 ≤ v) (t : OffsetForLeaderPartition23) (_h : t.Fits v) (_hf : t.Full v) :
    Protocol.OffsetForLeaderPartition.Valid true v (OffsetForLeaderPartition23.val t) :=
  Valids.all trivial <|
    Valids.since (fun _ => trivial) <|
    Valids.all trivial <|
    trivial

/-- `OffsetForLeaderTopic23` as a value of the protocol. -/
def OffsetForLeaderTopic23.val (t : OffsetForLeaderTopic23) : Val :=
  .struct [("Name", .str (some t.Name)),
    ("Partitions", ofStructs OffsetForLeaderPartition23.val t.Partitions)]

theorem OffsetForLeaderTopic23.conforms {v : Int16} (hv : 0 ≤ v) (t : OffsetForLeaderTopic23) :
    Protocol.OffsetForLeaderTopic.wire false v (OffsetForLeaderTopic23.val t) = OffsetForLeaderTopic23.wire v t :=
  Writes.eq <|
    Writes.all hv (Protocol.wire_string v t.Name) <|
    Writes.all hv (Protocol.wire_structs v (OffsetForLeaderPartition23.conforms hv) t.Partitions) <|
    Writes.done

/-- There is nothing that may not be nil. -/
def OffsetForLeaderTopic23.Full (_v : Int16) (_t : OffsetForLeaderTopic23) : Prop := True

theorem OffsetForLeaderTopic23.valid {v : Int16} (hv : 0 ≤ v) (t : OffsetForLeaderTopic23) (h : t.Fits v) (_hf : t.Full v) :
    Protocol.OffsetForLeaderTopic.Valid true v (OffsetForLeaderTopic23.val t) :=
  Valids.all (valid_string (h.Name)) <|
    Valids.all (valid_structs (fun y h hf => OffsetForLeaderPartition23.valid hv y h hf) (h.Partitions) (fun _ _ => trivial)) <|
    trivial

/-- `OffsetForLeaderEpochRequest` as a value of the protocol. -/
def OffsetForLeaderEpochRequest.val (t : OffsetForLeaderEpochRequest) : Val :=
  .struct [("ReplicaId", .int32 t.ReplicaId),
    ("Topics", ofStructs OffsetForLeaderTopic23.val t.Topics)]

theorem OffsetForLeaderEpochRequest.conforms {v : Int16} (hv : 0 ≤ v) (t : OffsetForLeaderEpochRequest) :
    Protocol.OffsetForLeaderEpochRequest.wire false v (OffsetForLeaderEpochRequest.val t) = OffsetForLeaderEpochRequest.wire v t :=
  Writes.eq <|
    Writes.since (Protocol.wire_int32 v t.ReplicaId) <|
    Writes.all hv (Protocol.wire_structs v (OffsetForLeaderTopic23.conforms hv) t.Topics) <|
    Writes.done

/-- There is nothing that may not be nil. -/
def OffsetForLeaderEpochRequest.Full (_v : Int16) (_t : OffsetForLeaderEpochRequest) : Prop := True

theorem OffsetForLeaderEpochRequest.valid {v : Int16} (hv : 0 ≤ v) (t : OffsetForLeaderEpochRequest) (h : t.Fits v) (_hf : t.Full v) :
    Protocol.OffsetForLeaderEpochRequest.Valid true v (OffsetForLeaderEpochRequest.val t) :=
  Valids.since (fun _ => trivial) <|
    Valids.all (valid_structs (fun y h hf => OffsetForLeaderTopic23.valid hv y h hf) (h.Topics) (fun _ _ => trivial)) <|
    trivial

/-- `OffsetForLeaderPartitionResult23` as a value of the protocol. -/
def OffsetForLeaderPartitionResult23.val (t : OffsetForLeaderPartitionResult23) : Val :=
  .struct [("ErrorCode", .int16 t.ErrorCode),
    ("PartitionIndex", .int32 t.PartitionIndex),
    ("LeaderEpoch", .int32 t.LeaderEpoch),
    ("EndOffset", .int64 t.EndOffset)]

theorem OffsetForLeaderPartitionResult23.conforms {v : Int16} (hv : 0 ≤ v) (t : OffsetForLeaderPartitionResult23) :
    Protocol.OffsetForLeaderPartitionResult.wire false v (OffsetForLeaderPartitionResult23.val t) = OffsetForLeaderPartitionResult23.wire v t :=
  Writes.eq <|
    Writes.all hv (Protocol.wire_int16 v t.ErrorCode) <|
    Writes.all hv (Protocol.wire_int32 v t.PartitionIndex) <|
    Writes.since (Protocol.wire_int32 v t.LeaderEpoch) <|
    Writes.all hv (Protocol.wire_int64 v t.EndOffset) <|
    Writes.done

/-- There is nothing that may not be nil. -/
def OffsetForLeaderPartitionResult23.Full (_v : Int16) (_t : OffsetForLeaderPartitionResult23) : Prop := True

theorem OffsetForLeaderPartitionResult23.valid {v : Int16} (_hv : 0 ≤ v) (t : OffsetForLeaderPartitionResult23) (_h : t.Fits v) (_hf : t.Full v) :
    Protocol.OffsetForLeaderPartitionResult.Valid true v (OffsetForLeaderPartitionResult23.val t) :=
  Valids.all trivial <|
    Valids.all trivial <|
    Valids.since (fun _ => trivial) <|
    Valids.all trivial <|
    trivial

/-- What `OffsetForLeaderPartitionResult23` holds after reading the value `x` into `t0`. -/
def OffsetForLeaderPartitionResult23.of (v : Int16) (x : Val) (t0 : OffsetForLeaderPartitionResult23) : OffsetForLeaderPartitionResult23 :=
  { ErrorCode := (x.get "ErrorCode").toInt16,
    PartitionIndex := (x.get "PartitionIndex").toInt32,
    LeaderEpoch := if v ≥ 1 then (x.get "LeaderEpoch").toInt32 else t0.LeaderEpoch,
    EndOffset := (x.get "EndOffset").toInt64 }

theorem OffsetForLeaderPartitionResult23.decodes {v : Int16} (hv : 0 ≤ v) (x : Val) (h : Protocol.OffsetForLeaderPartitionResult.Valid false v x) (t0 : OffsetForLeaderPartitionResult23) :
    Reads (OffsetForLeaderPartitionResult23.decode v t0) (Protocol.OffsetForLeaderPartitionResult.wire false v x) (OffsetForLeaderPartitionResult23.of v x t0) :=
  Reads.congr (((Step.field (set := fun (t : OffsetForLeaderPartitionResult23) x => { t with ErrorCode := x }) (read_int16 (Fields.Valid.head (h) hv)))
      |>.andThen (Step.field (set := fun (t : OffsetForLeaderPartitionResult23) x => { t with PartitionIndex := x }) (read_int32 (Fields.Valid.head (Fields.Valid.tail h) hv)))
      |>.andThen (Step.optField (c := v ≥ 1) (set := fun (t : OffsetForLeaderPartitionResult23) x => { t with LeaderEpoch := x }) (·.LeaderEpoch) (fun _ => rfl) fun hc => read_int32 (Fields.Valid.head (Fields.Valid.tail (Fields.Valid.tail h)) hc))
      |>.andThen (Step.field (set := fun (t : OffsetForLeaderPartitionResult23) x => { t with EndOffset := x }) (read_int64 (Fields.Valid.head (Fields.Valid.tail (Fields.Valid.tail (Fields.Valid.tail h))) hv))) : Step _ _ _) t0)
    (Writes.eq (fs := Protocol.OffsetForLeaderPartitionResult) (v := v) (x := x) <| Writes.all hv rfl <| Writes.all hv rfl <| Writes.since rfl <| Writes.all hv rfl <| Writes.done).symm rfl

theorem OffsetForLeaderPartitionResult23.parses {v : Int16} (hv : 0 ≤ v) (t0 : OffsetForLeaderPartitionResult23) :
    Parses (OffsetForLeaderPartitionResult23.decode v t0) ((Ty.struct Protocol.OffsetForLeaderPartitionResult).parse v) (fun x => OffsetForLeaderPartitionResult23.of v x t0) :=
  FParses.parses (fs := Protocol.OffsetForLeaderPartitionResult)
    (FParses.field hv (set := fun (t : OffsetForLeaderPartitionResult23) x => { t with ErrorCode := x }) par_int16 <|
    FParses.field hv (set := fun (t : OffsetForLeaderPartitionResult23) x => { t with PartitionIndex := x }) par_int32 <|
    FParses.optField (c := v ≥ 1) Iff.rfl (set := fun (t : OffsetForLeaderPartitionResult23) x => { t with LeaderEpoch := x }) (·.LeaderEpoch) (fun _ => rfl) par_int32 <|
    FParses.field hv (set := fun (t : OffsetForLeaderPartitionResult23) x => { t with EndOffset := x }) par_int64 <|
    FParses.done)
    (by simp only [OffsetForLeaderPartitionResult23.decode, Dec.andThen_assoc, Dec.andThen_nop]) (Fields.distinct_nodup _ (by decide +kernel)) (fun _ _ => rfl) t0

theorem OffsetForLeaderPartitionResult23.shown {v : Int16} (hv : 0 ≤ v) (x : Val) (h : Protocol.OffsetForLeaderPartitionResult.Typed v x) :
    Protocol.OffsetForLeaderPartitionResult.shows v x (OffsetForLeaderPartitionResult23.val (OffsetForLeaderPartitionResult23.of v x {})) = true :=
  Shows.all hv (show_int16 (Fields.Typed.head (h) hv)) <|
    Shows.all hv (show_int32 (Fields.Typed.head (Fields.Typed.tail h) hv)) <|
    Shows.since (.int32) rfl (fun hc => show_int32 (Fields.Typed.head (Fields.Typed.tail (Fields.Typed.tail h)) hc)) rfl <|
    Shows.all hv (show_int64 (Fields.Typed.head (Fields.Typed.tail (Fields.Typed.tail (Fields.Typed.tail h))) hv)) <|
    rfl

/-- `OffsetForLeaderTopicResult23` as a value of the protocol. -/
def OffsetForLeaderTopicResult23.val (t : OffsetForLeaderTopicResult23) : Val :=
  .struct [("Name", .str (some t.Name)),
    ("Partitions", ofStructs OffsetForLeaderPartitionResult23.val t.Partitions)]

theorem OffsetForLeaderTopicResult23.conforms {v : Int16} (hv : 0 ≤ v) (t : OffsetForLeaderTopicResult23) :
    Protocol.OffsetForLeaderTopicResult.wire false v (OffsetForLeaderTopicResult23.val t) = OffsetForLeaderTopicResult23.wire v t :=
  Writes.eq <|
    Writes.all hv (Protocol.wire_string v t.Name) <|
    Writes.all hv (Protocol.wire_structs v (OffsetForLeaderPartitionResult23.conforms hv) t.Partitions) <|
    Writes.done

/-- There is nothing that may not be nil. -/
def OffsetForLeaderTopicResult23.Full (_v : Int16) (_t : OffsetForLeaderTopicResult23) : Prop := True

theorem OffsetForLeaderTopicResult23.valid {v : Int16} (hv : 0 ≤ v) (t : OffsetForLeaderTopicResult23) (h : t.Fits v) (_hf : t.Full v) :
    Protocol.OffsetForLeaderTopicResult.Valid true v (OffsetForLeaderTopicResult23.val t) :=
  Valids.all (valid_string (h.Name)) <|
    Valids.all (valid_structs (fun y h hf => OffsetForLeaderPartitionResult23.valid hv y h hf) (h.Partitions) (fun _ _ => trivial)) <|
    trivial

/-- What `OffsetForLeaderTopicResult23` holds after reading the value `x` into `t0`. -/
def OffsetForLeaderTopicResult23.of (v : Int16) (x : Val) (t0 : OffsetForLeaderTopicResult23) : OffsetForLeaderTopicResult23 :=
  { Name := (x.get "Name").toStr,
    Partitions := (x.get "Partitions").toSliceOr (fun y => OffsetForLeaderPartitionResult23.of v y {}) t0.Partitions }

theorem OffsetForLeaderTopicResult23.decodes {v : Int16} (hv : 0 ≤ v) (x : Val) (h : Protocol.OffsetForLeaderTopicResult.Valid false v x) (t0 : OffsetForLeaderTopicResult23) :
    Reads (OffsetForLeaderTopicResult23.decode v t0) (Protocol.OffsetForLeaderTopicResult.wire false v x) (OffsetForLeaderTopicResult23.of v x t0) :=
  Reads.congr (((Step.field (set := fun (t : OffsetForLeaderTopicResult23) x => { t with Name := x }) (read_string (Fields.Valid.head (h) hv)))
      |>.andThen (Step.readStructs (get := fun (t : OffsetForLeaderTopicResult23) => t.Partitions) (set := fun (t : OffsetForLeaderTopicResult23) x => { t with Partitions := x }) (fun y hy => OffsetForLeaderPartitionResult23.decodes hv y hy {}) (Fields.Valid.head (Fields.Valid.tail h) hv)) : Step _ _ _) t0)
    (Writes.eq (fs := Protocol.OffsetForLeaderTopicResult) (v := v) (x := x) <| Writes.all hv rfl <| Writes.all hv rfl <| Writes.done).symm rfl

theorem OffsetForLeaderTopicResult23.parses {v : Int16} (hv : 0 ≤ v) (t0 : OffsetForLeaderTopicResult23) :
    Parses (OffsetForLeaderTopicResult23.decode v t0) ((Ty.struct Protocol.OffsetForLeaderTopicResult).parse v) (fun x => OffsetForLeaderTopicResult23.of v x t0) :=
  FParses.parses (fs := Protocol.OffsetForLeaderTopicResult)
    (FParses.field hv (set := fun (t : OffsetForLeaderTopicResult23) x => { t with Name := x }) par_string <|
    FParses.structs hv (get := fun (t : OffsetForLeaderTopicResult23) => t.Partitions) (set := fun (t : OffsetForLeaderTopicResult23) x => { t with Partitions := x }) (OffsetForLeaderPartitionResult23.parses hv {}) <|
    FParses.done)
    (by simp only [OffsetForLeaderTopicResult23.decode, Dec.andThen_nop]) (Fields.distinct_nodup _ (by decide +kernel)) (fun _ _ => rfl) t0

theorem OffsetForLeaderTopicResult23.shown {v : Int16} (hv : 0 ≤ v) (x : Val) (h : Protocol.OffsetForLeaderTopicResult.Typed v x) :
    Protocol.OffsetForLeaderTopicResult.shows v x (OffsetForLeaderTopicResult23.val (OffsetForLeaderTopicResult23.of v x {})) = true :=
  Shows.all hv (show_string (Fields.Typed.head (h) hv)) <|
    Shows.all hv (show_structs (f := OffsetForLeaderPartitionResult23.val) (g := fun y => OffsetForLeaderPartitionResult23.of v y {}) (fun y hy => OffsetForLeaderPartitionResult23.shown hv y hy) (Fields.Typed.head (Fields.Typed.tail h) hv)) <|
    rfl

/-- `OffsetForLeaderEpochResponse` as a value of the protocol. -/
def OffsetForLeaderEpochResponse.val (t : OffsetForLeaderEpochResponse) : Val :=
  .struct [("ThrottleTimeMs", .int32 t.ThrottleTimeMs),
    ("Topics", ofStructs OffsetForLeaderTopicResult23.val t.Topics)]

theorem OffsetForLeaderEpochResponse.conforms {v : Int16} (hv : 0 ≤ v) (t : OffsetForLeaderEpochResponse) :
    Protocol.OffsetForLeaderEpochResponse.wire false v (OffsetForLeaderEpochResponse.val t) = OffsetForLeaderEpochResponse.wire v t :=
  Writes.eq <|
    Writes.since (Protocol.wire_int32 v t.ThrottleTimeMs) <|
    Writes.all hv (Protocol.wire_structs v (OffsetForLeaderTopicResult23.conforms hv) t.Topics) <|
    Writes.done

/-- There is nothing that may not be nil. -/
def OffsetForLeaderEpochResponse.Full (_v : Int16) (_t : OffsetForLeaderEpochResponse) : Prop := True

theorem OffsetForLeaderEpochResponse.valid {v : Int16} (hv : 0 ≤ v) (t : OffsetForLeaderEpochResponse) (h : t.Fits v) (_hf : t.Full v) :
    Protocol.OffsetForLeaderEpochResponse.Valid true v (OffsetForLeaderEpochResponse.val t) :=
  Valids.since (fun _ => trivial) <|
    Valids.all (valid_structs (fun y h hf => OffsetForLeaderTopicResult23.valid hv y h hf) (h.Topics) (fun _ _ => trivial)) <|
    trivial

/-- What `OffsetForLeaderEpochResponse` holds after reading the value `x` into `t0`. -/
def OffsetForLeaderEpochResponse.of (v : Int16) (x : Val) (t0 : OffsetForLeaderEpochResponse) : OffsetForLeaderEpochResponse :=
  { ThrottleTimeMs := if v ≥ 2 then (x.get "ThrottleTimeMs").toInt32 else t0.ThrottleTimeMs,
    Topics := (x.get "Topics").toSliceOr (fun y => OffsetForLeaderTopicResult23.of v y {}) t0.Topics }

theorem OffsetForLeaderEpochResponse.decodes {v : Int16} (hv : 0 ≤ v) (x : Val) (h : Protocol.OffsetForLeaderEpochResponse.Valid false v x) (t0 : OffsetForLeaderEpochResponse) :
    Reads (OffsetForLeaderEpochResponse.decode v t0) (Protocol.OffsetForLeaderEpochResponse.wire false v x) (OffsetForLeaderEpochResponse.of v x t0) :=
  Reads.congr (((Step.optField (c := v ≥ 2) (set := fun (t : OffsetForLeaderEpochResponse) x => { t with ThrottleTimeMs := x }) (·.ThrottleTimeMs) (fun _ => rfl) fun hc => read_int32 (Fields.Valid.head (h) hc))
      |>.andThen (Step.readStructs (get := fun (t : OffsetForLeaderEpochResponse) => t.Topics) (set := fun (t : OffsetForLeaderEpochResponse) x => { t with Topics := x }) (fun y hy => OffsetForLeaderTopicResult23.decodes hv y hy {}) (Fields.Valid.head (Fields.Valid.tail h) hv)) : Step _ _ _) t0)
    (Writes.eq (fs := Protocol.OffsetForLeaderEpochResponse) (v := v) (x := x) <| Writes.since rfl <| Writes.all hv rfl <| Writes.done).symm rfl

theorem OffsetForLeaderEpochResponse.parses {v : Int16} (hv : 0 ≤ v) (t0 : OffsetForLeaderEpochResponse) :
    Parses (OffsetForLeaderEpochResponse.decode v t0) ((Ty.struct Protocol.OffsetForLeaderEpochResponse).parse v) (fun x => OffsetForLeaderEpochResponse.of v x t0) :=
  FParses.parses (fs := Protocol.OffsetForLeaderEpochResponse)
    (FParses.optField (c := v ≥ 2) Iff.rfl (set := fun (t : OffsetForLeaderEpochResponse) x => { t with ThrottleTimeMs := x }) (·.ThrottleTimeMs) (fun _ => rfl) par_int32 <|
    FParses.structs hv (get := fun (t : OffsetForLeaderEpochResponse) => t.Topics) (set := fun (t : OffsetForLeaderEpochResponse) x => { t with Topics := x }) (OffsetForLeaderTopicResult23.parses hv {}) <|
    FParses.done)
    (by simp only [OffsetForLeaderEpochResponse.decode, Dec.andThen_nop]) (Fields.distinct_nodup _ (by decide +kernel)) (fun _ _ => rfl) t0

theorem OffsetForLeaderEpochResponse.shown {v : Int16} (hv : 0 ≤ v) (x : Val) (h : Protocol.OffsetForLeaderEpochResponse.Typed v x) :
    Protocol.OffsetForLeaderEpochResponse.shows v x (OffsetForLeaderEpochResponse.val (OffsetForLeaderEpochResponse.of v x {})) = true :=
  Shows.since (.int32) rfl (fun hc => show_int32 (Fields.Typed.head (h) hc)) rfl <|
    Shows.all hv (show_structs (f := OffsetForLeaderTopicResult23.val) (g := fun y => OffsetForLeaderTopicResult23.of v y {}) (fun y hy => OffsetForLeaderTopicResult23.shown hv y hy) (Fields.Typed.head (Fields.Typed.tail h) hv)) <|
    rfl

end Kafka.Msg
