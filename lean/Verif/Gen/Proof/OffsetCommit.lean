import Verif.Message.StepLemmas
import Verif.Gen.Spec.OffsetCommit
/-!
Generated by tools/gen_messages.py: laws of the OffsetCommit messages.
-/
namespace Kafka.Msg

theorem OffsetCommitRequestPartition8.emits (version : Int16) (t : OffsetCommitRequestPartition8) :
    Emits (OffsetCommitRequestPartition8.encode version t) (OffsetCommitRequestPartition8.wire version t) :=
  (emits_int32 t.PartitionIndex)
    |>.andThen (emits_int64 t.CommittedOffset)
    |>.andThen (Emits.onlyIf (emits_int32 t.CommittedLeaderEpoch))
    |>.andThen (emits_string t.CommittedMetadata)
theorem OffsetCommitRequestPartition8.sized (version : Int16) (t : OffsetCommitRequestPartition8) :
    Sized (OffsetCommitRequestPartition8.size version t) (OffsetCommitRequestPartition8.wire version t) :=
  Grows.sized ((Grows.add (sized_int32 t.PartitionIndex))
    |>.andThen (Grows.add (sized_int64 t.CommittedOffset))
    |>.andThen (Grows.onlyIf (Grows.add (sized_int32 t.CommittedLeaderEpoch)))
    |>.andThen (Grows.add (sized_string t.CommittedMetadata)))
theorem OffsetCommitRequestPartition8.reads (version : Int16) (t : OffsetCommitRequestPartition8) (h : t.Fits version) (t0 : OffsetCommitRequestPartition8) :
    Reads (OffsetCommitRequestPartition8.decode version t0) (OffsetCommitRequestPartition8.wire version t) (t.seen version t0) :=
  ((Step.field (set := fun (t : OffsetCommitRequestPartition8) x => { t with PartitionIndex := x }) (reads_int32 t.PartitionIndex))
    |>.andThen (Step.field (set := fun (t : OffsetCommitRequestPartition8) x => { t with CommittedOffset := x }) (reads_int64 t.CommittedOffset))
    |>.andThen (Step.optField (c := version ≥ 6) (set := fun (t : OffsetCommitRequestPartition8) x => { t with CommittedLeaderEpoch := x }) (·.CommittedLeaderEpoch) (fun _ => rfl) fun _ => reads_int32 t.CommittedLeaderEpoch)
    |>.andThen (Step.field (set := fun (t : OffsetCommitRequestPartition8) x => { t with CommittedMetadata := x }) (reads_string h.CommittedMetadata)) : Step _ _ _) t0
theorem OffsetCommitRequestPartition8.tame (version : Int16) (t0 : OffsetCommitRequestPartition8) : Tame (OffsetCommitRequestPartition8.decode version t0) :=
  ((TameStep.field tame_int32)
    |>.andThen (TameStep.field tame_int64)
    |>.andThen (TameStep.onlyIf (TameStep.field tame_int32))
    |>.andThen (TameStep.field tame_string) : TameStep _) t0
theorem OffsetCommitRequestPartition8.calm (version : Int16) (t0 : OffsetCommitRequestPartition8) :
    Calm (OffsetCommitRequestPartition8.decode version t0) (fun _ => True) :=
  ((CalmStep.field tame_int32 calm_int32)
    |>.andThen (CalmStep.field tame_int64 calm_int64)
    |>.andThen (CalmStep.onlyIf (CalmStep.field tame_int32 calm_int32))
    |>.andThen (CalmStep.field tame_string calm_string) : CalmStep _).2 t0
theorem OffsetCommitRequestPartition8.canon (version : Int16) (t : OffsetCommitRequestPartition8) (h : t.Canon version) :
    t.seen version {} = t :=
  OffsetCommitRequestPartition8.ext rfl rfl (canon_opt h.CommittedLeaderEpoch) rfl
theorem OffsetCommitRequestPartition8.again (version : Int16) (t t0 : OffsetCommitRequestPartition8) :
    OffsetCommitRequestPartition8.wire version (t.seen version t0) = OffsetCommitRequestPartition8.wire version t :=
  app_congr (app_congr (app_congr (rfl) (rfl)) (again_opt Wire.int32 t.CommittedLeaderEpoch t0.CommittedLeaderEpoch)) (rfl)
theorem OffsetCommitRequestPartition8.lawful : Lawful OffsetCommitRequestPartition8.type OffsetCommitRequestPartition8.layout :=
  ⟨OffsetCommitRequestPartition8.emits, OffsetCommitRequestPartition8.sized, OffsetCommitRequestPartition8.reads, OffsetCommitRequestPartition8.tame, OffsetCommitRequestPartition8.calm, OffsetCommitRequestPartition8.canon, OffsetCommitRequestPartition8.again⟩

theorem OffsetCommitRequestTopic8.emits (version : Int16) (t : OffsetCommitRequestTopic8) :
    Emits (OffsetCommitRequestTopic8.encode version t) (OffsetCommitRequestTopic8.wire version t) :=
  (emits_string t.Name)
    |>.andThen (emits_structs (OffsetCommitRequestPartition8.emits version) t.Partitions)
theorem OffsetCommitRequestTopic8.sized (version : Int16) (t : OffsetCommitRequestTopic8) :
    Sized (OffsetCommitRequestTopic8.size version t) (OffsetCommitRequestTopic8.wire version t) :=
  Grows.sized ((Grows.add (sized_string t.Name))
    |>.andThen (Grows.structs (OffsetCommitRequestPartition8.sized version) t.Partitions))
theorem OffsetCommitRequestTopic8.reads (version : Int16) (t : OffsetCommitRequestTopic8) (h : t.Fits version) (t0 : OffsetCommitRequestTopic8) :
    Reads (OffsetCommitRequestTopic8.decode version t0) (OffsetCommitRequestTopic8.wire version t) (t.seen version t0) :=
  ((Step.field (set := fun (t : OffsetCommitRequestTopic8) x => { t with Name := x }) (reads_string h.Name))
    |>.andThen (Step.structs (get := fun (t : OffsetCommitRequestTopic8) => t.Partitions) (set := fun (t : OffsetCommitRequestTopic8) x => { t with Partitions := x }) (fun x hx => OffsetCommitRequestPartition8.reads version x hx {}) h.Partitions) : Step _ _ _) t0
theorem OffsetCommitRequestTopic8.tame (version : Int16) (t0 : OffsetCommitRequestTopic8) : Tame (OffsetCommitRequestTopic8.decode version t0) :=
  ((TameStep.field tame_string)
    |>.andThen (TameStep.structs (OffsetCommitRequestPartition8.tame version {})) : TameStep _) t0
theorem OffsetCommitRequestTopic8.calm (version : Int16) (t0 : OffsetCommitRequestTopic8) :
    Calm (OffsetCommitRequestTopic8.decode version t0) (fun _ => True) :=
  ((CalmStep.field tame_string calm_string)
    |>.andThen (CalmStep.structs (OffsetCommitRequestPartition8.tame version {}) (OffsetCommitRequestPartition8.calm version {})) : CalmStep _).2 t0
theorem OffsetCommitRequestTopic8.canon (version : Int16) (t : OffsetCommitRequestTopic8) (h : t.Canon version) :
    t.seen version {} = t :=
  OffsetCommitRequestTopic8.ext rfl (canon_structs (OffsetCommitRequestPartition8.canon version) h.Partitions)
theorem OffsetCommitRequestTopic8.again (version : Int16) (t t0 : OffsetCommitRequestTopic8) :
    OffsetCommitRequestTopic8.wire version (t.seen version t0) = OffsetCommitRequestTopic8.wire version t :=
  app_congr (rfl) (again_structs (fun x => OffsetCommitRequestPartition8.again version x {}) t.Partitions)
theorem OffsetCommitRequestTopic8.lawful : Lawful OffsetCommitRequestTopic8.type OffsetCommitRequestTopic8.layout :=
  ⟨OffsetCommitRequestTopic8.emits, OffsetCommitRequestTopic8.sized, OffsetCommitRequestTopic8.reads, OffsetCommitRequestTopic8.tame, OffsetCommitRequestTopic8.calm, OffsetCommitRequestTopic8.canon, OffsetCommitRequestTopic8.again⟩

theorem OffsetCommitRequest.emits (version : Int16) (t : OffsetCommitRequest) :
    Emits (OffsetCommitRequest.encode version t) (OffsetCommitRequest.wire version t) :=
  (emits_string t.GroupId)
    |>.andThen (Emits.onlyIf (emits_int32 t.GenerationId))
    |>.andThen (Emits.onlyIf (emits_string t.MemberId))
    |>.andThen (Emits.onlyIf (emits_string t.GroupInstanceId))
    |>.andThen (Emits.onlyIf (emits_int64 t.RetentionTimeMs))
    |>.andThen (emits_structs (OffsetCommitRequestTopic8.emits version) t.Topics)
theorem OffsetCommitRequest.sized (version : Int16) (t : OffsetCommitRequest) :
    Sized (OffsetCommitRequest.size version t) (OffsetCommitRequest.wire version t) :=
  Grows.sized ((Grows.add (sized_string t.GroupId))
    |>.andThen (Grows.onlyIf (Grows.add (sized_int32 t.GenerationId)))
    |>.andThen (Grows.onlyIf (Grows.add (sized_string t.MemberId)))
    |>.andThen (Grows.onlyIf (Grows.add (sized_string t.GroupInstanceId)))
    |>.andThen (Grows.onlyIf (Grows.add (sized_int64 t.RetentionTimeMs)))
    |>.andThen (Grows.structs (OffsetCommitRequestTopic8.sized version) t.Topics))
theorem OffsetCommitRequest.reads (version : Int16) (t : OffsetCommitRequest) (h : t.Fits version) (t0 : OffsetCommitRequest) :
    Reads (OffsetCommitRequest.decode version t0) (OffsetCommitRequest.wire version t) (t.seen version t0) :=
  ((Step.field (set := fun (t : OffsetCommitRequest) x => { t with GroupId := x }) (reads_string h.GroupId))
    |>.andThen (Step.optField (c := version ≥ 1) (set := fun (t : OffsetCommitRequest) x => { t with GenerationId := x }) (·.GenerationId) (fun _ => rfl) fun _ => reads_int32 t.GenerationId)
    |>.andThen (Step.optField (c := version ≥ 1) (set := fun (t : OffsetCommitRequest) x => { t with MemberId := x }) (·.MemberId) (fun _ => rfl) fun hc => reads_string (h.MemberId hc))
    |>.andThen (Step.optField (c := version ≥ 7) (set := fun (t : OffsetCommitRequest) x => { t with GroupInstanceId := x }) (·.GroupInstanceId) (fun _ => rfl) fun hc => reads_string (h.GroupInstanceId hc))
    |>.andThen (Step.optField (c := version ≥ 2 ∧ version ≤ 4) (set := fun (t : OffsetCommitRequest) x => { t with RetentionTimeMs := x }) (·.RetentionTimeMs) (fun _ => rfl) fun _ => reads_int64 t.RetentionTimeMs)
    |>.andThen (Step.structs (get := fun (t : OffsetCommitRequest) => t.Topics) (set := fun (t : OffsetCommitRequest) x => { t with Topics := x }) (fun x hx => OffsetCommitRequestTopic8.reads version x hx {}) h.Topics) : Step _ _ _) t0
theorem OffsetCommitRequest.tame (version : Int16) (t0 : OffsetCommitRequest) : Tame (OffsetCommitRequest.decode version t0) :=
  ((TameStep.field tame_string)
    |>.andThen (TameStep.onlyIf (TameStep.field tame_int32))
    |>.andThen (TameStep.onlyIf (TameStep.field tame_string))
    |>.andThen (TameStep.onlyIf (TameStep.field tame_string))
    |>.andThen (TameStep.onlyIf (TameStep.field tame_int64))
    |>.andThen (TameStep.structs (OffsetCommitRequestTopic8.tame version {})) : TameStep _) t0
theorem OffsetCommitRequest.calm (version : Int16) (t0 : OffsetCommitRequest) :
    Calm (OffsetCommitRequest.decode version t0) (fun _ => True) :=
  ((CalmStep.field tame_string calm_string)
    |>.andThen (CalmStep.onlyIf (CalmStep.field tame_int32 calm_int32))
    |>.andThen (CalmStep.onlyIf (CalmStep.field tame_string calm_string))
    |>.andThen (CalmStep.onlyIf (CalmStep.field tame_string calm_string))
    |>.andThen (CalmStep.onlyIf (CalmStep.field tame_int64 calm_int64))
    |>.andThen (CalmStep.structs (OffsetCommitRequestTopic8.tame version {}) (OffsetCommitRequestTopic8.calm version {})) : CalmStep _).2 t0
theorem OffsetCommitRequest.canon (version : Int16) (t : OffsetCommitRequest) (h : t.Canon version) :
    t.seen version {} = t :=
  OffsetCommitRequest.ext rfl (canon_opt h.GenerationId) (canon_opt h.MemberId) (canon_opt h.GroupInstanceId) (canon_opt h.RetentionTimeMs) (canon_structs (OffsetCommitRequestTopic8.canon version) h.Topics)
theorem OffsetCommitRequest.again (version : Int16) (t t0 : OffsetCommitRequest) :
    OffsetCommitRequest.wire version (t.seen version t0) = OffsetCommitRequest.wire version t :=
  app_congr (app_congr (app_congr (app_congr (app_congr (rfl) (again_opt Wire.int32 t.GenerationId t0.GenerationId)) (again_opt Wire.string t.MemberId t0.MemberId)) (again_opt Wire.string t.GroupInstanceId t0.GroupInstanceId)) (again_opt Wire.int64 t.RetentionTimeMs t0.RetentionTimeMs)) (again_structs (fun x => OffsetCommitRequestTopic8.again version x {}) t.Topics)
theorem OffsetCommitRequest.lawful : Lawful OffsetCommitRequest.type OffsetCommitRequest.layout :=
  ⟨OffsetCommitRequest.emits, OffsetCommitRequest.sized, OffsetCommitRequest.reads, OffsetCommitRequest.tame, OffsetCommitRequest.calm, OffsetCommitRequest.canon, OffsetCommitRequest.again⟩

theorem OffsetCommitResponsePartition8.emits (version : Int16) (t : OffsetCommitResponsePartition8) :
    Emits (OffsetCommitResponsePartition8.encode version t) (OffsetCommitResponsePartition8.wire version t) :=
  (emits_int32 t.PartitionIndex)
    |>.andThen (emits_int16 t.ErrorCode)
theorem OffsetCommitResponsePartition8.sized (version : Int16) (t : OffsetCommitResponsePartition8) :
    Sized (OffsetCommitResponsePartition8.size version t) (OffsetCommitResponsePartition8.wire version t) :=
  Grows.sized ((Grows.add (sized_int32 t.PartitionIndex))
    |>.andThen (Grows.add (sized_int16 t.ErrorCode)))
theorem OffsetCommitResponsePartition8.reads (version : Int16) (t : OffsetCommitResponsePartition8) (_h : t.Fits version) (t0 : OffsetCommitResponsePartition8) :
    Reads (OffsetCommitResponsePartition8.decode version t0) (OffsetCommitResponsePartition8.wire version t) (t.seen version t0) :=
  ((Step.field (set := fun (t : OffsetCommitResponsePartition8) x => { t with PartitionIndex := x }) (reads_int32 t.PartitionIndex))
    |>.andThen (Step.field (set := fun (t : OffsetCommitResponsePartition8) x => { t with ErrorCode := x }) (reads_int16 t.ErrorCode)) : Step _ _ _) t0
theorem OffsetCommitResponsePartition8.tame (version : Int16) (t0 : OffsetCommitResponsePartition8) : Tame (OffsetCommitResponsePartition8.decode version t0) :=
  ((TameStep.field tame_int32)
    |>.andThen (TameStep.field tame_int16) : TameStep _) t0
theorem OffsetCommitResponsePartition8.calm (version : Int16) (t0 : OffsetCommitResponsePartition8) :
    Calm (OffsetCommitResponsePartition8.decode version t0) (fun _ => True) :=
  ((CalmStep.field tame_int32 calm_int32)
    |>.andThen (CalmStep.field tame_int16 calm_int16) : CalmStep _).2 t0
theorem OffsetCommitResponsePartition8.canon (version : Int16) (t : OffsetCommitResponsePartition8) (_h : t.Canon version) :
    t.seen version {} = t :=
  OffsetCommitResponsePartition8.ext rfl rfl
theorem OffsetCommitResponsePartition8.again (version : Int16) (t t0 : OffsetCommitResponsePartition8) :
    OffsetCommitResponsePartition8.wire version (t.seen version t0) = OffsetCommitResponsePartition8.wire version t :=
  app_congr (rfl) (rfl)
theorem OffsetCommitResponsePartition8.lawful : Lawful OffsetCommitResponsePartition8.type OffsetCommitResponsePartition8.layout :=
  ⟨OffsetCommitResponsePartition8.emits, OffsetCommitResponsePartition8.sized, OffsetCommitResponsePartition8.reads, OffsetCommitResponsePartition8.tame, OffsetCommitResponsePartition8.calm, OffsetCommitResponsePartition8.canon, OffsetCommitResponsePartition8.again⟩

theorem OffsetCommitResponseTopic8.emits (version : Int16) (t : OffsetCommitResponseTopic8) :
    Emits (OffsetCommitResponseTopic8.encode version t) (OffsetCommitResponseTopic8.wire version t) :=
  (emits_string t.Name)
    |>.andThen (emits_structs (OffsetCommitResponsePartition8.emits version) t.Partitions)
theorem OffsetCommitResponseTopic8.sized (version : Int16) (t : OffsetCommitResponseTopic8) :
    Sized (OffsetCommitResponseTopic8.size version t) (OffsetCommitResponseTopic8.wire version t) :=
  Grows.sized ((Grows.add (sized_string t.Name))
    |>.andThen (Grows.structs (OffsetCommitResponsePartition8.sized version) t.Partitions))
theorem OffsetCommitResponseTopic8.reads (version : Int16) (t : OffsetCommitResponseTopic8) (h : t.Fits version) (t0 : OffsetCommitResponseTopic8) :
    Reads (OffsetCommitResponseTopic8.decode version t0) (OffsetCommitResponseTopic8.wire version t) (t.seen version t0) :=
  ((Step.field (set := fun (t : OffsetCommitResponseTopic8) x => { t with Name := x }) (reads_string h.Name))
    |>.andThen (Step.structs (get := fun (t : OffsetCommitResponseTopic8) => t.Partitions) (set := fun (t : OffsetCommitResponseTopic8) x => { t with Partitions := x }) (fun x hx => OffsetCommitResponsePartition8.reads version x hx {}) h.Partitions) : Step _ _ _) t0
theorem OffsetCommitResponseTopic8.tame (version : Int16) (t0 : OffsetCommitResponseTopic8) : Tame (OffsetCommitResponseTopic8.decode version t0) :=
  ((TameStep.field tame_string)
    |>.andThen (TameStep.structs (OffsetCommitResponsePartition8.tame version {})) : TameStep _) t0
theorem OffsetCommitResponseTopic8.calm (version : Int16) (t0 : OffsetCommitResponseTopic8) :
    Calm (OffsetCommitResponseTopic8.decode version t0) (fun _ => True) :=
  ((CalmStep.field tame_string calm_string)
    |>.andThen (CalmStep.structs (OffsetCommitResponsePartition8.tame version {}) (OffsetCommitResponsePartition8.calm version {})) : CalmStep _).2 t0
theorem OffsetCommitResponseTopic8.canon (version : Int16) (t : OffsetCommitResponseTopic8) (h : t.Canon version) :
    t.seen version {} = t :=
  OffsetCommitResponseTopic8.ext rfl (canon_structs (OffsetCommitResponsePartition8.canon version) h.Partitions)
theorem OffsetCommitResponseTopic8.again (version : Int16) (t t0 : OffsetCommitResponseTopic8) :
    OffsetCommitResponseTopic8.wire version (t.seen version t0) = OffsetCommitResponseTopic8.wire version t :=
  app_congr (rfl) (again_structs (fun x => OffsetCommitResponsePartition8.again version x {}) t.Partitions)
theorem OffsetCommitResponseTopic8.lawful : Lawful OffsetCommitResponseTopic8.type OffsetCommitResponseTopic8.layout :=
  ⟨OffsetCommitResponseTopic8.emits, OffsetCommitResponseTopic8.sized, OffsetCommitResponseTopic8.reads, OffsetCommitResponseTopic8.tame, OffsetCommitResponseTopic8.calm, OffsetCommitResponseTopic8.canon, OffsetCommitResponseTopic8.again⟩

theorem OffsetCommitResponse.emits (version : Int16) (t : OffsetCommitResponse) :
    Emits (OffsetCommitResponse.encode version t) (OffsetCommitResponse.wire version t) :=
  (Emits.onlyIf (emits_int32 t.ThrottleTimeMs))
    |>.andThen (emits_structs (OffsetCommitResponseTopic8.emits version) t.Topics)
theorem OffsetCommitResponse.sized (version : Int16) (t : OffsetCommitResponse) :
    Sized (OffsetCommitResponse.size version t) (OffsetCommitResponse.wire version t) :=
  Grows.sized ((Grows.onlyIf (Grows.add (sized_int32 t.ThrottleTimeMs)))
    |>.andThen (Grows.structs (OffsetCommitResponseTopic8.sized version) t.Topics))
theorem OffsetCommitResponse.reads (version : Int16) (t : OffsetCommitResponse) (h : t.Fits version) (t0 : OffsetCommitResponse) :
    Reads (OffsetCommitResponse.decode version t0) (OffsetCommitResponse.wire version t) (t.seen version t0) :=
  ((Step.optField (c := version ≥ 3) (set := fun (t : OffsetCommitResponse) x => { t with ThrottleTimeMs := x }) (·.ThrottleTimeMs) (fun _ => rfl) fun _ => reads_int32 t.ThrottleTimeMs)
    |>.andThen (Step.structs (get := fun (t : OffsetCommitResponse) => t.Topics) (set := fun (t : OffsetCommitResponse) x => { t with Topics := x }) (fun x hx => OffsetCommitResponseTopic8.reads version x hx {}) h.Topics) : Step _ _ _) t0
theorem OffsetCommitResponse.tame (version : Int16) (t0 : OffsetCommitResponse) : Tame (OffsetCommitResponse.decode version t0) :=
  ((TameStep.onlyIf (TameStep.field tame_int32))
    |>.andThen (TameStep.structs (OffsetCommitResponseTopic8.tame version {})) : TameStep _) t0
theorem OffsetCommitResponse.calm (version : Int16) (t0 : OffsetCommitResponse) :
    Calm (OffsetCommitResponse.decode version t0) (fun _ => True) :=
  ((CalmStep.onlyIf (CalmStep.field tame_int32 calm_int32))
    |>.andThen (CalmStep.structs (OffsetCommitResponseTopic8.tame version {}) (OffsetCommitResponseTopic8.calm version {})) : CalmStep _).2 t0
theorem OffsetCommitResponse.canon (version : Int16) (t : OffsetCommitResponse) (h : t.Canon version) :
    t.seen version {} = t :=
  OffsetCommitResponse.ext (canon_opt h.ThrottleTimeMs) (canon_structs (OffsetCommitResponseTopic8.canon version) h.Topics)
theorem OffsetCommitResponse.again (version : Int16) (t t0 : OffsetCommitResponse) :
    OffsetCommitResponse.wire version (t.seen version t0) = OffsetCommitResponse.wire version t :=
  app_congr (again_opt Wire.int32 t.ThrottleTimeMs t0.ThrottleTimeMs) (again_structs (fun x => OffsetCommitResponseTopic8.again version x {}) t.Topics)
theorem OffsetCommitResponse.lawful : Lawful OffsetCommitResponse.type OffsetCommitResponse.layout :=
  ⟨OffsetCommitResponse.emits, OffsetCommitResponse.sized, OffsetCommitResponse.reads, OffsetCommitResponse.tame, OffsetCommitResponse.calm, OffsetCommitResponse.canon, OffsetCommitResponse.again⟩

end Kafka.Msg
