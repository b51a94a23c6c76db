import Verif.Protocol.ParseLemmas
import Verif.Gen.Spec.OffsetCommit
/-!
Generated by tools/gen_protocol.py: the OffsetCommit messages are written and read as the protocol says.
-/
namespace Kafka.Msg

open Protocol

/-- `OffsetCommitRequestPartition8` as a value of the protocol. -/
def OffsetCommitRequestPartition8.val (t : OffsetCommitRequestPartition8) : Val :=
  .struct [("PartitionIndex", .int32 t.PartitionIndex),
    ("CommittedOffset", .int64 t.CommittedOffset),
    ("CommittedLeaderEpoch", .int32 t.CommittedLeaderEpoch),
    ("CommittedMetadata", .str (some t.CommittedMetadata))]

theorem OffsetCommitRequestPartition8.conforms {v : Int16} (hv : 0 ≤ v) (h1 : v ≠ 1) (t : OffsetCommitRequestPartition8) :
    Protocol.OffsetCommitRequestPartition.wire false v (OffsetCommitRequestPartition8.val t) = OffsetCommitRequestPartition8.wire v t :=
  Writes.eq <|
    Writes.all hv (Protocol.wire_int32 v t.PartitionIndex) <|
    Writes.all hv (Protocol.wire_int64 v t.CommittedOffset) <|
    Writes.since (Protocol.wire_int32 v t.CommittedLeaderEpoch) <|
    Writes.absent (notOne h1) <|
    Writes.all hv (Protocol.wire_string v t.CommittedMetadata) <|
    Writes.done

/-- There is nothing that may not be nil. -/
def OffsetCommitRequestPartition8.Full (_v : Int16) (_t : OffsetCommitRequestPartition8) : Prop := True

theorem OffsetCommitRequestPartition8.valid {v : Int16} (_hv : 0 ≤ v) (h1 : v ≠ 1) (t : OffsetCommitRequestPartition8) (h : t.Fits v) (_hf : t.Full v) :
    Protocol.OffsetCommitRequestPartition.Valid true v (OffsetCommitRequestPartition8.val t) :=
  Valids.all trivial <|
    Valids.all trivial <|
    Valids.since (fun _ => trivial) <|
    Valids.absent (notOne h1) <|
    Valids.all (valid_string (h.CommittedMetadata)) <|
    trivial

/-- `OffsetCommitRequestTopic8` as a value of the protocol. -/
def OffsetCommitRequestTopic8.val (t : OffsetCommitRequestTopic8) : Val :=
  .struct [("Name", .str (some t.Name)),
    ("Partitions", ofStructs OffsetCommitRequestPartition8.val t.Partitions)]

theorem OffsetCommitRequestTopic8.conforms {v : Int16} (hv : 0 ≤ v) (h1 : v ≠ 1) (t : OffsetCommitRequestTopic8) :
    Protocol.OffsetCommitRequestTopic.wire false v (OffsetCommitRequestTopic8.val t) = OffsetCommitRequestTopic8.wire v t :=
  Writes.eq <|
    Writes.all hv (Protocol.wire_string v t.Name) <|
    Writes.all hv (Protocol.wire_structs v (OffsetCommitRequestPartition8.conforms hv h1) t.Partitions) <|
    Writes.done

/-- There is nothing that may not be nil. -/
def OffsetCommitRequestTopic8.Full (_v : Int16) (_t : OffsetCommitRequestTopic8) : Prop := True

theorem OffsetCommitRequestTopic8.valid {v : Int16} (hv : 0 ≤ v) (h1 : v ≠ 1) (t : OffsetCommitRequestTopic8) (h : t.Fits v) (_hf : t.Full v) :
    Protocol.OffsetCommitRequestTopic.Valid true v (OffsetCommitRequestTopic8.val t) :=
  Valids.all (valid_string (h.Name)) <|
    Valids.all (valid_structs (fun y h hf => OffsetCommitRequestPartition8.valid hv h1 y h hf) (h.Partitions) (fun _ _ => trivial)) <|
    trivial

/-- `OffsetCommitRequest` as a value of the protocol. -/
def OffsetCommitRequest.val (t : OffsetCommitRequest) : Val :=
  .struct [("GroupId", .str (some t.GroupId)),
    ("GenerationId", .int32 t.GenerationId),
    ("MemberId", .str (some t.MemberId)),
    ("GroupInstanceId", .str (some t.GroupInstanceId)),
    ("RetentionTimeMs", .int64 t.RetentionTimeMs),
    ("Topics", ofStructs OffsetCommitRequestTopic8.val t.Topics)]

theorem OffsetCommitRequest.conforms {v : Int16} (hv : 0 ≤ v) (h1 : v ≠ 1) (t : OffsetCommitRequest) :
    Protocol.OffsetCommitRequest.wire false v (OffsetCommitRequest.val t) = OffsetCommitRequest.wire v t :=
  Writes.eq <|
    Writes.all hv (Protocol.wire_string v t.GroupId) <|
    Writes.since (Protocol.wire_int32 v t.GenerationId) <|
    Writes.since (Protocol.wire_string v t.MemberId) <|
    Writes.since (Protocol.wire_string v t.GroupInstanceId) <|
    Writes.between (Protocol.wire_int64 v t.RetentionTimeMs) <|
    Writes.all hv (Protocol.wire_structs v (OffsetCommitRequestTopic8.conforms hv h1) t.Topics) <|
    Writes.done

/-- There is nothing that may not be nil. -/
def OffsetCommitRequest.Full (_v : Int16) (_t : OffsetCommitRequest) : Prop := True

theorem OffsetCommitRequest.valid {v : Int16} (hv : 0 ≤ v) (h1 : v ≠ 1) (t : OffsetCommitRequest) (h : t.Fits v) (_hf : t.Full v) :
    Protocol.OffsetCommitRequest.Valid true v (OffsetCommitRequest.val t) :=
  Valids.all (valid_string (h.GroupId)) <|
    Valids.since (fun _ => trivial) <|
    Valids.since (fun hc => valid_string (h.MemberId hc)) <|
    Valids.since (fun hc => valid_string (h.GroupInstanceId hc)) <|
    Valids.between (fun _ => trivial) <|
    Valids.all (valid_structs (fun y h hf => OffsetCommitRequestTopic8.valid hv h1 y h hf) (h.Topics) (fun _ _ => trivial)) <|
    trivial

/-- `OffsetCommitResponsePartition8` as a value of the protocol. -/
def OffsetCommitResponsePartition8.val (t : OffsetCommitResponsePartition8) : Val :=
  .struct [("PartitionIndex", .int32 t.PartitionIndex),
    ("ErrorCode", .int16 t.ErrorCode)]

theorem OffsetCommitResponsePartition8.conforms {v : Int16} (hv : 0 ≤ v) (t : OffsetCommitResponsePartition8) :
    Protocol.OffsetCommitResponsePartition.wire false v (OffsetCommitResponsePartition8.val t) = OffsetCommitResponsePartition8.wire v t :=
  Writes.eq <|
    Writes.all hv (Protocol.wire_int32 v t.PartitionIndex) <|
    Writes.all hv (Protocol.wire_int16 v t.ErrorCode) <|
    Writes.done

/-- There is nothing that may not be nil. -/
def OffsetCommitResponsePartition8.Full (_v : Int16) (_t : OffsetCommitResponsePartition8) : Prop := True

theorem OffsetCommitResponsePartition8.valid {v : Int16} (_hv : 0 ≤ v) (t : OffsetCommitResponsePartition8) (_h : t.Fits v) (_hf : t.Full v) :
    Protocol.OffsetCommitResponsePartition.Valid true v (OffsetCommitResponsePartition8.val t) :=
  Valids.all trivial <|
    Valids.all trivial <|
    trivial

/-- What `OffsetCommitResponsePartition8` holds after reading the value `x` into `t0`. -/
def OffsetCommitResponsePartition8.of (_v : Int16) (x : Val) (_t0 : OffsetCommitResponsePartition8) : OffsetCommitResponsePartition8 :=
  { PartitionIndex := (x.get "PartitionIndex").toInt32,
    ErrorCode := (x.get "ErrorCode").toInt16 }

theorem OffsetCommitResponsePartition8.decodes {v : Int16} (hv : 0 ≤ v) (x : Val) (h : Protocol.OffsetCommitResponsePartition.Valid false v x) (t0 : OffsetCommitResponsePartition8) :
    Reads (OffsetCommitResponsePartition8.decode v t0) (Protocol.OffsetCommitResponsePartition.wire false v x) (OffsetCommitResponsePartition8.of v x t0) :=
  Reads.congr (((Step.field (set := fun (t : OffsetCommitResponsePartition8) x => { t with PartitionIndex := x }) (read_int32 (Fields.Valid.head (h) hv)))
      |>.andThen (Step.field (set := fun (t : OffsetCommitResponsePartition8) x => { t with ErrorCode := x }) (read_int16 (Fields.Valid.head (Fields.Valid.tail h) hv))) : Step _ _ _) t0)
    (Writes.eq (fs := Protocol.OffsetCommitResponsePartition) (v := v) (x := x) <| Writes.all hv rfl <| Writes.all hv rfl <| Writes.done).symm rfl

theorem OffsetCommitResponsePartition8.parses {v : Int16} (hv : 0 ≤ v) (t0 : OffsetCommitResponsePartition8) :
    Parses (OffsetCommitResponsePartition8.decode v t0) ((Ty.struct Protocol.OffsetCommitResponsePartition).parse v) (fun x => OffsetCommitResponsePartition8.of v x t0) :=
  FParses.parses (fs := Protocol.OffsetCommitResponsePartition)
    (FParses.field hv (set := fun (t : OffsetCommitResponsePartition8) x => { t with PartitionIndex := x }) par_int32 <|
    FParses.field hv (set := fun (t : OffsetCommitResponsePartition8) x => { t with ErrorCode := x }) par_int16 <|
    FParses.done)
    (by simp only [OffsetCommitResponsePartition8.decode, Dec.andThen_nop]) (Fields.distinct_nodup _ (by decide +kernel)) (fun _ _ => rfl) t0

theorem OffsetCommitResponsePartition8.shown {v : Int16} (hv : 0 ≤ v) (x : Val) (h : Protocol.OffsetCommitResponsePartition.Typed v x) :
    Protocol.OffsetCommitResponsePartition.shows v x (OffsetCommitResponsePartition8.val (OffsetCommitResponsePartition8.of v x {})) = true :=
  Shows.all hv (show_int32 (Fields.Typed.head (h) hv)) <|
    Shows.all hv (show_int16 (Fields.Typed.head (Fields.Typed.tail h) hv)) <|
    rfl

/-- `OffsetCommitResponseTopic8` as a value of the protocol. -/
def OffsetCommitResponseTopic8.val (t : OffsetCommitResponseTopic8) : Val :=
  .struct [("Name", .str (some t.Name)),
    ("Partitions", ofStructs OffsetCommitResponsePartition8.val t.Partitions)]

theorem OffsetCommitResponseTopic8.conforms {v : Int16} (hv : 0 ≤ v) (t : OffsetCommitResponseTopic8) :
    Protocol.OffsetCommitResponseTopic.wire false v (OffsetCommitResponseTopic8.val t) = OffsetCommitResponseTopic8.wire v t :=
  Writes.eq <|
    Writes.all hv (Protocol.wire_string v t.Name) <|
    Writes.all hv (Protocol.wire_structs v (OffsetCommitResponsePartition8.conforms hv) t.Partitions) <|
    Writes.done

/-- There is nothing that may not be nil. -/
def OffsetCommitResponseTopic8.Full (_v : Int16) (_t : OffsetCommitResponseTopic8) : Prop := True

theorem OffsetCommitResponseTopic8.valid {v : Int16} (hv : 0 ≤ v) (t : OffsetCommitResponseTopic8) (h : t.Fits v) (_hf : t.Full v) :
    Protocol.OffsetCommitResponseTopic.Valid true v (OffsetCommitResponseTopic8.val t) :=
  Valids.all (valid_string (h.Name)) <|
    Valids.all (valid_structs (fun y h hf => OffsetCommitResponsePartition8.valid hv y h hf) (h.Partitions) (fun _ _ => trivial)) <|
    trivial

/-- What `OffsetCommitResponseTopic8` holds after reading the value `x` into `t0`. -/
def OffsetCommitResponseTopic8.of (v : Int16) (x : Val) (t0 : OffsetCommitResponseTopic8) : OffsetCommitResponseTopic8 :=
  { Name := (x.get "Name").toStr,
    Partitions := (x.get "Partitions").toSliceOr (fun y => OffsetCommitResponsePartition8.of v y {}) t0.Partitions }

theorem OffsetCommitResponseTopic8.decodes {v : Int16} (hv : 0 ≤ v) (x : Val) (h : Protocol.OffsetCommitResponseTopic.Valid false v x) (t0 : OffsetCommitResponseTopic8) :
    Reads (OffsetCommitResponseTopic8.decode v t0) (Protocol.OffsetCommitResponseTopic.wire false v x) (OffsetCommitResponseTopic8.of v x t0) :=
  Reads.congr (((Step.field (set := fun (t : OffsetCommitResponseTopic8) x => { t with Name := x }) (read_string (Fields.Valid.head (h) hv)))
      |>.andThen (Step.readStructs (get := fun (t : OffsetCommitResponseTopic8) => t.Partitions) (set := fun (t : OffsetCommitResponseTopic8) x => { t with Partitions := x }) (fun y hy => OffsetCommitResponsePartition8.decodes hv y hy {}) (Fields.Valid.head (Fields.Valid.tail h) hv)) : Step _ _ _) t0)
    (Writes.eq (fs := Protocol.OffsetCommitResponseTopic) (v := v) (x := x) <| Writes.all hv rfl <| Writes.all hv rfl <| Writes.done).symm rfl

theorem OffsetCommitResponseTopic8.parses {v : Int16} (hv : 0 ≤ v) (t0 : OffsetCommitResponseTopic8) :
    Parses (OffsetCommitResponseTopic8.decode v t0) ((Ty.struct Protocol.OffsetCommitResponseTopic).parse v) (fun x => OffsetCommitResponseTopic8.of v x t0) :=
  FParses.parses (fs := Protocol.OffsetCommitResponseTopic)
    (FParses.field hv (set := fun (t : OffsetCommitResponseTopic8) x => { t with Name := x }) par_string <|
    FParses.structs hv (get := fun (t : OffsetCommitResponseTopic8) => t.Partitions) (set := fun (t : OffsetCommitResponseTopic8) x => { t with Partitions := x }) (OffsetCommitResponsePartition8.parses hv {}) <|
    FParses.done)
    (by simp only [OffsetCommitResponseTopic8.decode, Dec.andThen_nop]) (Fields.distinct_nodup _ (by decide +kernel)) (fun _ _ => rfl) t0

theorem OffsetCommitResponseTopic8.shown {v : Int16} (hv : 0 ≤ v) (x : Val) (h : Protocol.OffsetCommitResponseTopic.Typed v x) :
    Protocol.OffsetCommitResponseTopic.shows v x (OffsetCommitResponseTopic8.val (OffsetCommitResponseTopic8.of v x {})) = true :=
  Shows.all hv (show_string (Fields.Typed.head (h) hv)) <|
    Shows.all hv (show_structs (f := OffsetCommitResponsePartition8.val) (g := fun y => OffsetCommitResponsePartition8.of v y {}) (fun y hy => OffsetCommitResponsePartition8.shown hv y hy) (Fields.Typed.head (Fields.Typed.tail h) hv)) <|
    rfl

/-- `OffsetCommitResponse` as a value of the protocol. -/
def OffsetCommitResponse.val (t : OffsetCommitResponse) : Val :=
  .struct [("ThrottleTimeMs", .int32 t.ThrottleTimeMs),
    ("Topics", ofStructs OffsetCommitResponseTopic8.val t.Topics)]

theorem OffsetCommitResponse.conforms {v : Int16} (hv : 0 ≤ v) (t : OffsetCommitResponse) :
    Protocol.OffsetCommitResponse.wire false v (OffsetCommitResponse.val t) = OffsetCommitResponse.wire v t :=
  Writes.eq <|
    Writes.since (Protocol.wire_int32 v t.ThrottleTimeMs) <|
    Writes.all hv (Protocol.wire_structs v (OffsetCommitResponseTopic8.conforms hv) t.Topics) <|
    Writes.done

/-- There is nothing that may not be nil. -/
def OffsetCommitResponse.Full (_v : Int16) (_t : OffsetCommitResponse) : Prop := True

theorem OffsetCommitResponse.valid {v : Int16} (hv : 0 ≤ v) (t : OffsetCommitResponse) (h : t.Fits v) (_hf : t.Full v) :
    Protocol.OffsetCommitResponse.Valid true v (OffsetCommitResponse.val t) :=
  Valids.since (fun _ => trivial) <|
    Valids.all (valid_structs (fun y h hf => OffsetCommitResponseTopic8.valid hv y h hf) (h.Topics) (fun _ _ => trivial)) <|
    trivial

/-- What `OffsetCommitResponse` holds after reading the value `x` into `t0`. -/
def OffsetCommitResponse.of (v : Int16) (x : Val) (t0 : OffsetCommitResponse) : OffsetCommitResponse :=
  { ThrottleTimeMs := if v ≥ 3 then (x.get "ThrottleTimeMs").toInt32 else t0.ThrottleTimeMs,
    Topics := (x.get "Topics").toSliceOr (fun y => OffsetCommitResponseTopic8.of v y {}) t0.Topics }

theorem OffsetCommitResponse.decodes {v : Int16} (hv : 0 ≤ v) (x : Val) (h : Protocol.OffsetCommitResponse.Valid false v x) (t0 : OffsetCommitResponse) :
    Reads (OffsetCommitResponse.decode v t0) (Protocol.OffsetCommitResponse.wire false v x) (OffsetCommitResponse.of v x t0) :=
  Reads.congr (((Step.optField (c := v ≥ 3) (set := fun (t : OffsetCommitResponse) x => { t with ThrottleTimeMs := x }) (·.ThrottleTimeMs) (fun _ => rfl) fun hc => read_int32 (Fields.Valid.head (h) hc))
      |>.andThen (Step.readStructs (get := fun (t : OffsetCommitResponse) => t.Topics) (set := fun (t : OffsetCommitResponse) x => { t with Topics := x }) (fun y hy => OffsetCommitResponseTopic8.decodes hv y hy {}) (Fields.Valid.head (Fields.Valid.tail h) hv)) : Step _ _ _) t0)
    (Writes.eq (fs := Protocol.OffsetCommitResponse) (v := v) (x := x) <| Writes.since rfl <| Writes.all hv rfl <| Writes.done).symm rfl

theorem OffsetCommitResponse.parses {v : Int16} (hv : 0 ≤ v) (t0 : OffsetCommitResponse) :
    Parses (OffsetCommitResponse.decode v t0) ((Ty.struct Protocol.OffsetCommitResponse).parse v) (fun x => OffsetCommitResponse.of v x t0) :=
  FParses.parses (fs := Protocol.OffsetCommitResponse)
    (FParses.optField (c := v ≥ 3) Iff.rfl (set := fun (t : OffsetCommitResponse) x => { t with ThrottleTimeMs := x }) (·.ThrottleTimeMs) (fun _ => rfl) par_int32 <|
    FParses.structs hv (get := fun (t : OffsetCommitResponse) => t.Topics) (set := fun (t : OffsetCommitResponse) x => { t with Topics := x }) (OffsetCommitResponseTopic8.parses hv {}) <|
    FParses.done)
    (by simp only [OffsetCommitResponse.decode, Dec.andThen_nop]) (Fields.distinct_nodup _ (by decide +kernel)) (fun _ _ => rfl) t0

theorem OffsetCommitResponse.shown {v : Int16} (hv : 0 ≤ v) (x : Val) (h : Protocol.OffsetCommitResponse.Typed v x) :
    Protocol.OffsetCommitResponse.shows v x (OffsetCommitResponse.val (OffsetCommitResponse.of v x {})) = true :=
  Shows.since (.int32) rfl (fun hc => show_int32 (Fields.Typed.head (h) hc)) rfl <|
    Shows.all hv (show_structs (f := OffsetCommitResponseTopic8.val) (g := fun y => OffsetCommitResponseTopic8.of v y {}) (fun y hy => OffsetCommitResponseTopic8.shown hv y hy) (Fields.Typed.head (Fields.Typed.tail h) hv)) <|
    rfl

end Kafka.Msg
