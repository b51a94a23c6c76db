import Verif.Protocol.Conform.OffsetCommit
/-!
Generated by tools/gen_protocol.py: the OffsetCommit request is read as the protocol says.
-/
namespace Kafka.Msg

open Protocol

/-- What `OffsetCommitRequestPartition8` holds after reading the value `x` into `t0`. -/
def OffsetCommitRequestPartition8.of (v : Int16) (x : Val) (t0 : OffsetCommitRequestPartition8) : OffsetCommitRequestPartition8 :=
  { PartitionIndex := (x.get "PartitionIndex").toInt32,
    CommittedOffset := (x.get "CommittedOffset").toInt64,
    CommittedLeaderEpoch := if v ≥ 6 then (x.get "CommittedLeaderEpoch").toInt32 else t0.CommittedLeaderEpoch,
    CommittedMetadata := (x.get "CommittedMetadata").toStr }

/-- `OffsetCommitRequestPartition8` as a value of the protocol, what the client does not have being zero. -/
def OffsetCommitRequestPartition8.asked (t : OffsetCommitRequestPartition8) : Val :=
  .struct [("PartitionIndex", .int32 t.PartitionIndex),
    ("CommittedOffset", .int64 t.CommittedOffset),
    ("CommittedLeaderEpoch", .int32 t.CommittedLeaderEpoch),
    ("CommitTimestamp", .int64 0),
    ("CommittedMetadata", .str (some t.CommittedMetadata))]

theorem OffsetCommitRequestPartition8.asked_conforms {v : Int16} (hv : 0 ≤ v) (h1 : v ≠ 1) (t : OffsetCommitRequestPartition8) :
    Protocol.OffsetCommitRequestPartition.wire false v (OffsetCommitRequestPartition8.asked t) = OffsetCommitRequestPartition8.wire v t :=
  Writes.eq <|
    Writes.all hv (Protocol.wire_int32 v t.PartitionIndex) <|
    Writes.all hv (Protocol.wire_int64 v t.CommittedOffset) <|
    Writes.since (Protocol.wire_int32 v t.CommittedLeaderEpoch) <|
    Writes.absent (notOne h1) <|
    Writes.all hv (Protocol.wire_string v t.CommittedMetadata) <|
    Writes.done

theorem OffsetCommitRequestPartition8.decodes {v : Int16} (hv : 0 ≤ v) (h1 : v ≠ 1) (x : Val) (h : Protocol.OffsetCommitRequestPartition.Valid false v x) (t0 : OffsetCommitRequestPartition8) :
    Reads (OffsetCommitRequestPartition8.decode v t0) (Protocol.OffsetCommitRequestPartition.wire false v x) (OffsetCommitRequestPartition8.of v x t0) :=
  Reads.congr (((Step.field (set := fun (t : OffsetCommitRequestPartition8) x => { t with PartitionIndex := x }) (read_int32 (Fields.Valid.head (h) hv)))
      |>.andThen (Step.field (set := fun (t : OffsetCommitRequestPartition8) x => { t with CommittedOffset := x }) (read_int64 (Fields.Valid.head (Fields.Valid.tail h) hv)))
      |>.andThen (Step.optField (c := v ≥ 6) (set := fun (t : OffsetCommitRequestPartition8) x => { t with CommittedLeaderEpoch := x }) (·.CommittedLeaderEpoch) (fun _ => rfl) fun hc => read_int32 (Fields.Valid.head (Fields.Valid.tail (Fields.Valid.tail h)) hc))
      |>.andThen (Step.field (set := fun (t : OffsetCommitRequestPartition8) x => { t with CommittedMetadata := x }) (read_string (Fields.Valid.head (Fields.Valid.tail (Fields.Valid.tail (Fields.Valid.tail (Fields.Valid.tail h)))) hv))) : Step _ _ _) t0)
    (Writes.eq (fs := Protocol.OffsetCommitRequestPartition) (v := v) (x := x) <| Writes.all hv rfl <| Writes.all hv rfl <| Writes.since rfl <| Writes.absent (notOne h1) <| Writes.all hv rfl <| Writes.done).symm rfl

theorem OffsetCommitRequestPartition8.parses {v : Int16} (hv : 0 ≤ v) (h1 : v ≠ 1) (t0 : OffsetCommitRequestPartition8) :
    Parses (OffsetCommitRequestPartition8.decode v t0) ((Ty.struct Protocol.OffsetCommitRequestPartition).parse v) (fun x => OffsetCommitRequestPartition8.of v x t0) :=
  FParses.parses (fs := Protocol.OffsetCommitRequestPartition)
    (FParses.field hv (set := fun (t : OffsetCommitRequestPartition8) x => { t with PartitionIndex := x }) par_int32 <|
    FParses.field hv (set := fun (t : OffsetCommitRequestPartition8) x => { t with CommittedOffset := x }) par_int64 <|
    FParses.optField (c := v ≥ 6) Iff.rfl (set := fun (t : OffsetCommitRequestPartition8) x => { t with CommittedLeaderEpoch := x }) (·.CommittedLeaderEpoch) (fun _ => rfl) par_int32 <|
    FParses.missing (notOne h1) <|
    FParses.field hv (set := fun (t : OffsetCommitRequestPartition8) x => { t with CommittedMetadata := x }) par_string <|
    FParses.done)
    (by simp only [OffsetCommitRequestPartition8.decode, Dec.andThen_assoc, Dec.andThen_nop]) (Fields.distinct_nodup _ (by decide +kernel)) (fun _ _ => rfl) t0

theorem OffsetCommitRequestPartition8.shown {v : Int16} (hv : 0 ≤ v) (h1 : v ≠ 1) (x : Val) (h : Protocol.OffsetCommitRequestPartition.Typed v x) :
    Protocol.OffsetCommitRequestPartition.shows v x (OffsetCommitRequestPartition8.asked (OffsetCommitRequestPartition8.of v x {})) = true :=
  Shows.all hv (show_int32 (Fields.Typed.head (h) hv)) <|
    Shows.all hv (show_int64 (Fields.Typed.head (Fields.Typed.tail h) hv)) <|
    Shows.since (.int32) rfl (fun hc => show_int32 (Fields.Typed.head (Fields.Typed.tail (Fields.Typed.tail h)) hc)) rfl <|
    Shows.absent (notOne h1) rfl <|
    Shows.all hv (show_string (Fields.Typed.head (Fields.Typed.tail (Fields.Typed.tail (Fields.Typed.tail (Fields.Typed.tail h)))) hv)) <|
    rfl

/-- What `OffsetCommitRequestTopic8` holds after reading the value `x` into `t0`. -/
def OffsetCommitRequestTopic8.of (v : Int16) (x : Val) (t0 : OffsetCommitRequestTopic8) : OffsetCommitRequestTopic8 :=
  { Name := (x.get "Name").toStr,
    Partitions := (x.get "Partitions").toSliceOr (fun y => OffsetCommitRequestPartition8.of v y {}) t0.Partitions }

/-- `OffsetCommitRequestTopic8` as a value of the protocol, what the client does not have being zero. -/
def OffsetCommitRequestTopic8.asked (t : OffsetCommitRequestTopic8) : Val :=
  .struct [("Name", .str (some t.Name)),
    ("Partitions", ofStructs OffsetCommitRequestPartition8.asked t.Partitions)]

theorem OffsetCommitRequestTopic8.asked_conforms {v : Int16} (hv : 0 ≤ v) (h1 : v ≠ 1) (t : OffsetCommitRequestTopic8) :
    Protocol.OffsetCommitRequestTopic.wire false v (OffsetCommitRequestTopic8.asked t) = OffsetCommitRequestTopic8.wire v t :=
  Writes.eq <|
    Writes.all hv (Protocol.wire_string v t.Name) <|
    Writes.all hv (Protocol.wire_structs v (OffsetCommitRequestPartition8.asked_conforms hv h1) t.Partitions) <|
    Writes.done

theorem OffsetCommitRequestTopic8.decodes {v : Int16} (hv : 0 ≤ v) (h1 : v ≠ 1) (x : Val) (h : Protocol.OffsetCommitRequestTopic.Valid false v x) (t0 : OffsetCommitRequestTopic8) :
    Reads (OffsetCommitRequestTopic8.decode v t0) (Protocol.OffsetCommitRequestTopic.wire false v x) (OffsetCommitRequestTopic8.of v x t0) :=
  Reads.congr (((Step.field (set := fun (t : OffsetCommitRequestTopic8) x => { t with Name := x }) (read_string (Fields.Valid.head (h) hv)))
      |>.andThen (Step.readStructs (get := fun (t : OffsetCommitRequestTopic8) => t.Partitions) (set := fun (t : OffsetCommitRequestTopic8) x => { t with Partitions := x }) (fun y hy => OffsetCommitRequestPartition8.decodes hv h1 y hy {}) (Fields.Valid.head (Fields.Valid.tail h) hv)) : Step _ _ _) t0)
    (Writes.eq (fs := Protocol.OffsetCommitRequestTopic) (v := v) (x := x) <| Writes.all hv rfl <| Writes.all hv rfl <| Writes.done).symm rfl

theorem OffsetCommitRequestTopic8.parses {v : Int16} (hv : 0 ≤ v) (h1 : v ≠ 1) (t0 : OffsetCommitRequestTopic8) :
    Parses (OffsetCommitRequestTopic8.decode v t0) ((Ty.struct Protocol.OffsetCommitRequestTopic).parse v) (fun x => OffsetCommitRequestTopic8.of v x t0) :=
  FParses.parses (fs := Protocol.OffsetCommitRequestTopic)
    (FParses.field hv (set := fun (t : OffsetCommitRequestTopic8) x => { t with Name := x }) par_string <|
    FParses.structs hv (get := fun (t : OffsetCommitRequestTopic8) => t.Partitions) (set := fun (t : OffsetCommitRequestTopic8) x => { t with Partitions := x }) (OffsetCommitRequestPartition8.parses hv h1 {}) <|
    FParses.done)
    (by simp only [OffsetCommitRequestTopic8.decode, Dec.andThen_nop]) (Fields.distinct_nodup _ (by decide +kernel)) (fun _ _ => rfl) t0

theorem OffsetCommitRequestTopic8.shown {v : Int16} (hv : 0 ≤ v) (h1 : v ≠ 1) (x : Val) (h : Protocol.OffsetCommitRequestTopic.Typed v x) :
    Protocol.OffsetCommitRequestTopic.shows v x (OffsetCommitRequestTopic8.asked (OffsetCommitRequestTopic8.of v x {})) = true :=
  Shows.all hv (show_string (Fields.Typed.head (h) hv)) <|
    Shows.all hv (show_structs (f := OffsetCommitRequestPartition8.asked) (g := fun y => OffsetCommitRequestPartition8.of v y {}) (fun y hy => OffsetCommitRequestPartition8.shown hv h1 y hy) (Fields.Typed.head (Fields.Typed.tail h) hv)) <|
    rfl

/-- What `OffsetCommitRequest` holds after reading the value `x` into `t0`. -/
def OffsetCommitRequest.of (v : Int16) (x : Val) (t0 : OffsetCommitRequest) : OffsetCommitRequest :=
  { GroupId := (x.get "GroupId").toStr,
    GenerationId := if v ≥ 1 then (x.get "GenerationId").toInt32 else t0.GenerationId,
    MemberId := if v ≥ 1 then (x.get "MemberId").toStr else t0.MemberId,
    GroupInstanceId := if v ≥ 7 then (x.get "GroupInstanceId").toStr else t0.GroupInstanceId,
    RetentionTimeMs := if v ≥ 2 ∧ v ≤ 4 then (x.get "RetentionTimeMs").toInt64 else t0.RetentionTimeMs,
    Topics := (x.get "Topics").toSliceOr (fun y => OffsetCommitRequestTopic8.of v y {}) t0.Topics }

/-- `OffsetCommitRequest` as a value of the protocol, what the client does not have being zero. -/
def OffsetCommitRequest.asked (t : OffsetCommitRequest) : Val :=
  .struct [("GroupId", .str (some t.GroupId)),
    ("GenerationId", .int32 t.GenerationId),
    ("MemberId", .str (some t.MemberId)),
    ("GroupInstanceId", .str (some t.GroupInstanceId)),
    ("RetentionTimeMs", .int64 t.RetentionTimeMs),
    ("Topics", ofStructs OffsetCommitRequestTopic8.asked t.Topics)]

theorem OffsetCommitRequest.asked_conforms {v : Int16} (hv : 0 ≤ v) (h1 : v ≠ 1) (t : OffsetCommitRequest) :
    Protocol.OffsetCommitRequest.wire false v (OffsetCommitRequest.asked t) = OffsetCommitRequest.wire v t :=
  Writes.eq <|
    Writes.all hv (Protocol.wire_string v t.GroupId) <|
    Writes.since (Protocol.wire_int32 v t.GenerationId) <|
    Writes.since (Protocol.wire_string v t.MemberId) <|
    Writes.since (Protocol.wire_string v t.GroupInstanceId) <|
    Writes.between (Protocol.wire_int64 v t.RetentionTimeMs) <|
    Writes.all hv (Protocol.wire_structs v (OffsetCommitRequestTopic8.asked_conforms hv h1) t.Topics) <|
    Writes.done

theorem OffsetCommitRequest.decodes {v : Int16} (hv : 0 ≤ v) (h1 : v ≠ 1) (x : Val) (h : Protocol.OffsetCommitRequest.Valid false v x) (t0 : OffsetCommitRequest) :
    Reads (OffsetCommitRequest.decode v t0) (Protocol.OffsetCommitRequest.wire false v x) (OffsetCommitRequest.of v x t0) :=
  Reads.congr (((Step.field (set := fun (t : OffsetCommitRequest) x => { t with GroupId := x }) (read_string (Fields.Valid.head (h) hv)))
      |>.andThen (Step.optField (c := v ≥ 1) (set := fun (t : OffsetCommitRequest) x => { t with GenerationId := x }) (·.GenerationId) (fun _ => rfl) fun hc => read_int32 (Fields.Valid.head (Fields.Valid.tail h) hc))
      |>.andThen (Step.optField (c := v ≥ 1) (set := fun (t : OffsetCommitRequest) x => { t with MemberId := x }) (·.MemberId) (fun _ => rfl) fun hc => read_string (Fields.Valid.head (Fields.Valid.tail (Fields.Valid.tail h)) hc))
      |>.andThen (Step.optField (c := v ≥ 7) (set := fun (t : OffsetCommitRequest) x => { t with GroupInstanceId := x }) (·.GroupInstanceId) (fun _ => rfl) fun hc => read_string (Fields.Valid.head (Fields.Valid.tail (Fields.Valid.tail (Fields.Valid.tail h))) hc))
      |>.andThen (Step.optField (c := v ≥ 2 ∧ v ≤ 4) (set := fun (t : OffsetCommitRequest) x => { t with RetentionTimeMs := x }) (·.RetentionTimeMs) (fun _ => rfl) fun hc => read_int64 (Fields.Valid.head (Fields.Valid.tail (Fields.Valid.tail (Fields.Valid.tail (Fields.Valid.tail h)))) hc))
      |>.andThen (Step.readStructs (get := fun (t : OffsetCommitRequest) => t.Topics) (set := fun (t : OffsetCommitRequest) x => { t with Topics := x }) (fun y hy => OffsetCommitRequestTopic8.decodes hv h1 y hy {}) (Fields.Valid.head (Fields.Valid.tail (Fields.Valid.tail (Fields.Valid.tail (Fields.Valid.tail (Fields.Valid.tail h))))) hv)) : Step _ _ _) t0)
    (Writes.eq (fs := Protocol.OffsetCommitRequest) (v := v) (x := x) <| Writes.all hv rfl <| Writes.since rfl <| Writes.since rfl <| Writes.since rfl <| Writes.between rfl <| Writes.all hv rfl <| Writes.done).symm rfl

theorem OffsetCommitRequest.parses {v : Int16} (hv : 0 ≤ v) (h1 : v ≠ 1) (t0 : OffsetCommitRequest) :
    Parses (OffsetCommitRequest.decode v t0) ((Ty.struct Protocol.OffsetCommitRequest).parse v) (fun x => OffsetCommitRequest.of v x t0) :=
  FParses.parses (fs := Protocol.OffsetCommitRequest)
    (FParses.field hv (set := fun (t : OffsetCommitRequest) x => { t with GroupId := x }) par_string <|
    FParses.optField (c := v ≥ 1) Iff.rfl (set := fun (t : OffsetCommitRequest) x => { t with GenerationId := x }) (·.GenerationId) (fun _ => rfl) par_int32 <|
    FParses.optField (c := v ≥ 1) Iff.rfl (set := fun (t : OffsetCommitRequest) x => { t with MemberId := x }) (·.MemberId) (fun _ => rfl) par_string <|
    FParses.optField (c := v ≥ 7) Iff.rfl (set := fun (t : OffsetCommitRequest) x => { t with GroupInstanceId := x }) (·.GroupInstanceId) (fun _ => rfl) par_string <|
    FParses.optField (c := v ≥ 2 ∧ v ≤ 4) Iff.rfl (set := fun (t : OffsetCommitRequest) x => { t with RetentionTimeMs := x }) (·.RetentionTimeMs) (fun _ => rfl) par_int64 <|
    FParses.structs hv (get := fun (t : OffsetCommitRequest) => t.Topics) (set := fun (t : OffsetCommitRequest) x => { t with Topics := x }) (OffsetCommitRequestTopic8.parses hv h1 {}) <|
    FParses.done)
    (by simp only [OffsetCommitRequest.decode, Dec.andThen_assoc, Dec.andThen_nop]) (Fields.distinct_nodup _ (by decide +kernel)) (fun _ _ => rfl) t0

theorem OffsetCommitRequest.shown {v : Int16} (hv : 0 ≤ v) (h1 : v ≠ 1) (x : Val) (h : Protocol.OffsetCommitRequest.Typed v x) :
    Protocol.OffsetCommitRequest.shows v x (OffsetCommitRequest.asked (OffsetCommitRequest.of v x {})) = true :=
  Shows.all hv (show_string (Fields.Typed.head (h) hv)) <|
    Shows.since (.int32) rfl (fun hc => show_int32 (Fields.Typed.head (Fields.Typed.tail h) hc)) rfl <|
    Shows.since (fun s => .str (some s)) rfl (fun hc => show_string (Fields.Typed.head (Fields.Typed.tail (Fields.Typed.tail h)) hc)) rfl <|
    Shows.since (fun s => .str (some s)) rfl (fun hc => show_string (Fields.Typed.head (Fields.Typed.tail (Fields.Typed.tail (Fields.Typed.tail h))) hc)) rfl <|
    Shows.between (.int64) rfl (fun hc => show_int64 (Fields.Typed.head (Fields.Typed.tail (Fields.Typed.tail (Fields.Typed.tail (Fields.Typed.tail h)))) hc)) rfl <|
    Shows.all hv (show_structs (f := OffsetCommitRequestTopic8.asked) (g := fun y => OffsetCommitRequestTopic8.of v y {}) (fun y hy => OffsetCommitRequestTopic8.shown hv h1 y hy) (Fields.Typed.head (Fields.Typed.tail (Fields.Typed.tail (Fields.Typed.tail (Fields.Typed.tail (Fields.Typed.tail h))))) hv)) <|
    rfl

end Kafka.Msg
