import Verif.Message.StepLemmas
import Verif.Gen.Spec.OffsetForLeaderEpoch
/-!
Generated by tools/gen_messages.py: laws of the OffsetForLeaderEpoch messages.
-/
namespace Kafka.Msg

theorem OffsetForLeaderPartition23.emits (version : Int16) (t : OffsetForLeaderPartition23) :
    Emits (OffsetForLeaderPartition23.encode version t) (OffsetForLeaderPartition23.wire version t) :=
  (emits_int32 t.PartitionIndex)
    |>.andThen (Emits.onlyIf (emits_int32 t.CurrentLeaderEpoch))
    |>.andThen (emits_int32 t.LeaderEpoch)
theorem OffsetForLeaderPartition23.sized (version : Int16) (t : OffsetForLeaderPartition23) :
    Sized (OffsetForLeaderPartition23.size version t) (OffsetForLeaderPartition23.wire version t) :=
  Grows.sized ((Grows.add (sized_int32 t.PartitionIndex))
    |>.andThen (Grows.onlyIf (Grows.add (sized_int32 t.CurrentLeaderEpoch)))
    |>.andThen (Grows.add (sized_int32 t.LeaderEpoch)))
theorem OffsetForLeaderPartition23.reads (version : Int16) (t : OffsetForLeaderPartition23) (_h : t.Fits version) (t0 : OffsetForLeaderPartition23) :
    Reads (OffsetForLeaderPartition23.decode version t0) (OffsetForLeaderPartition23.wire version t) (t.seen version t0) :=
  ((Step.field (set := fun (t : OffsetForLeaderPartition23) x => { t with PartitionIndex := x }) (reads_int32 t.PartitionIndex))
    |>.andThen (Step.optField (c := version ≥ 2) (set := fun (t : OffsetForLeaderPartition23) x => { t with CurrentLeaderEpoch := x }) (·.CurrentLeaderEpoch) (fun _ => rfl) fun _ => reads_int32 t.CurrentLeaderEpoch)
    |>.andThen (Step.field (set := fun (t : OffsetForLeaderPartition23) x => { t with LeaderEpoch := x }) (reads_int32 t.LeaderEpoch)) : Step _ _ _) t0
theorem OffsetForLeaderPartition23.tame (version : Int16) (t0 : OffsetForLeaderPartition23) : Tame (OffsetForLeaderPartition23.decode version t0) :=
  ((TameStep.field tame_int32)
    |>.andThen (TameStep.onlyIf (TameStep.field tame_int32))
    |>.andThen (TameStep.field tame_int32) : TameStep _) t0
theorem OffsetForLeaderPartition23.calm (version : Int16) (t0 : OffsetForLeaderPartition23) :
    Calm (OffsetForLeaderPartition23.decode version t0) (fun _ => True) :=
  ((CalmStep.field tame_int32 calm_int32)
    |>.andThen (CalmStep.onlyIf (CalmStep.field tame_int32 calm_int32))
    |>.andThen (CalmStep.field tame_int32 calm_int32) : CalmStep _).2 t0
theorem OffsetForLeaderPartition23.canon (version : Int16) (t : OffsetForLeaderPartition23) (h : t.Canon version) :
    t.seen version {} = t :=
  OffsetForLeaderPartition23.ext rfl (canon_opt h.CurrentLeaderEpoch) rfl
theorem OffsetForLeaderPartition23.again (version : Int16) (t t0 : OffsetForLeaderPartition23) :
    OffsetForLeaderPartition23.wire version (t.seen version t0) = OffsetForLeaderPartition23.wire version t :=
  app_congr (app_congr (rfl) (again_opt Wire.int32 t.CurrentLeaderEpoch t0.CurrentLeaderEpoch)) (rfl)
theorem OffsetForLeaderPartition23.lawful : Lawful OffsetForLeaderPartition23.type OffsetForLeaderPartition23.layout :=
  ⟨OffsetForLeaderPartition23.emits, OffsetForLeaderPartition23.sized, OffsetForLeaderPartition23.reads, OffsetForLeaderPartition23.tame, OffsetForLeaderPartition23.calm, OffsetForLeaderPartition23.canon, OffsetForLeaderPartition23.again⟩

theorem OffsetForLeaderTopic23.emits (version : Int16) (t : OffsetForLeaderTopic23) :
    Emits (OffsetForLeaderTopic23.encode version t) (OffsetForLeaderTopic23.wire version t) :=
  (emits_string t.Name)
    |>.andThen (emits_structs (OffsetForLeaderPartition23.emits version) t.Partitions)
theorem OffsetForLeaderTopic23.sized (version : Int16) (t : OffsetForLeaderTopic23) :
    Sized (OffsetForLeaderTopic23.size version t) (OffsetForLeaderTopic23.wire version t) :=
  Grows.sized ((Grows.add (sized_string t.Name))
    |>.andThen (Grows.structs (OffsetForLeaderPartition23.sized version) t.Partitions))
theorem OffsetForLeaderTopic23.reads (version : Int16) (t : OffsetForLeaderTopic23) (h : t.Fits version) (t0 : OffsetForLeaderTopic23) :
    Reads (OffsetForLeaderTopic23.decode version t0) (OffsetForLeaderTopic23.wire version t) (t.seen version t0) :=
  ((Step.field (set := fun (t : OffsetForLeaderTopic23) x => { t with Name := x }) (reads_string h.Name))
    |>.andThen (Step.structs (get := fun (t : OffsetForLeaderTopic23) => t.Partitions) (set := fun (t : OffsetForLeaderTopic23) x => { t with Partitions := x }) (fun x hx => OffsetForLeaderPartition23.reads version x hx {}) h.Partitions) : Step _ _ _) t0
theorem OffsetForLeaderTopic23.tame (version : Int16) (t0 : OffsetForLeaderTopic23) : Tame (OffsetForLeaderTopic23.decode version t0) :=
  ((TameStep.field tame_string)
    |>.andThen (TameStep.structs (OffsetForLeaderPartition23.tame version {})) : TameStep _) t0
theorem OffsetForLeaderTopic23.calm (version : Int16) (t0 : OffsetForLeaderTopic23) :
    Calm (OffsetForLeaderTopic23.decode version t0) (fun _ => True) :=
  ((CalmStep.field tame_string calm_string)
    |>.andThen (CalmStep.structs (OffsetForLeaderPartition23.tame version {}) (OffsetForLeaderPartition23.calm version {})) : CalmStep _).2 t0
theorem OffsetForLeaderTopic23.canon (version : Int16) (t : OffsetForLeaderTopic23) (h : t.Canon version) :
    t.seen version {} = t :=
  OffsetForLeaderTopic23.ext rfl (canon_structs (OffsetForLeaderPartition23.canon version) h.Partitions)
theorem OffsetForLeaderTopic23.again (version : Int16) (t t0 : OffsetForLeaderTopic23) :
    OffsetForLeaderTopic23.wire version (t.seen version t0) = OffsetForLeaderTopic23.wire version t :=
  app_congr (rfl) (again_structs (fun x => OffsetForLeaderPartition23.again version x {}) t.Partitions)
theorem OffsetForLeaderTopic23.lawful : Lawful OffsetForLeaderTopic23.type OffsetForLeaderTopic23.layout :=
  ⟨OffsetForLeaderTopic23.emits, OffsetForLeaderTopic23.sized, OffsetForLeaderTopic23.reads, OffsetForLeaderTopic23.tame, OffsetForLeaderTopic23.calm, OffsetForLeaderTopic23.canon, OffsetForLeaderTopic23.again⟩

theorem OffsetForLeaderEpochRequest.emits (version : Int16) (t : OffsetForLeaderEpochRequest) :
    Emits (OffsetForLeaderEpochRequest.encode version t) (OffsetForLeaderEpochRequest.wire version t) :=
  (Emits.onlyIf (emits_int32 t.ReplicaId))
    |>.andThen (emits_structs (OffsetForLeaderTopic23.emits version) t.Topics)
theorem OffsetForLeaderEpochRequest.sized (version : Int16) (t : OffsetForLeaderEpochRequest) :
    Sized (OffsetForLeaderEpochRequest.size version t) (OffsetForLeaderEpochRequest.wire version t) :=
  Grows.sized ((Grows.onlyIf (Grows.add (sized_int32 t.ReplicaId)))
    |>.andThen (Grows.structs (OffsetForLeaderTopic23.sized version) t.Topics))
theorem OffsetForLeaderEpochRequest.reads (version : Int16) (t : OffsetForLeaderEpochRequest) (h : t.Fits version) (t0 : OffsetForLeaderEpochRequest) :
    Reads (OffsetForLeaderEpochRequest.decode version t0) (OffsetForLeaderEpochRequest.wire version t) (t.seen version t0) :=
  ((Step.optField (c := version ≥ 3) (set := fun (t : OffsetForLeaderEpochRequest) x => { t with ReplicaId := x }) (·.ReplicaId) (fun _ => rfl) fun _ => reads_int32 t.ReplicaId)
    |>.andThen (Step.structs (get := fun (t : OffsetForLeaderEpochRequest) => t.Topics) (set := fun (t : OffsetForLeaderEpochRequest) x => { t with Topics := x }) (fun x hx => OffsetForLeaderTopic23.reads version x hx {}) h.Topics) : Step _ _ _) t0
theorem OffsetForLeaderEpochRequest.tame (version : Int16) (t0 : OffsetForLeaderEpochRequest) : Tame (OffsetForLeaderEpochRequest.decode version t0) :=
  ((TameStep.onlyIf (TameStep.field tame_int32))
    |>.andThen (TameStep.structs (OffsetForLeaderTopic23.tame version {})) : TameStep _) t0
theorem OffsetForLeaderEpochRequest.calm (version : Int16) (t0 : OffsetForLeaderEpochRequest) :
    Calm (OffsetForLeaderEpochRequest.decode version t0) (fun _ => True) :=
  ((CalmStep.onlyIf (CalmStep.field tame_int32 calm_int32))
    |>.andThen (CalmStep.structs (OffsetForLeaderTopic23.tame version {}) (OffsetForLeaderTopic23.calm version {})) : CalmStep _).2 t0
theorem OffsetForLeaderEpochRequest.canon (version : Int16) (t : OffsetForLeaderEpochRequest) (h : t.Canon version) :
    t.seen version {} = t :=
  OffsetForLeaderEpochRequest.ext (canon_opt h.ReplicaId) (canon_structs (OffsetForLeaderTopic23.canon version) h.Topics)
theorem OffsetForLeaderEpochRequest.again (version : Int16) (t t0 : OffsetForLeaderEpochRequest) :
    OffsetForLeaderEpochRequest.wire version (t.seen version t0) = OffsetForLeaderEpochRequest.wire version t :=
  app_congr (again_opt Wire.int32 t.ReplicaId t0.ReplicaId) (again_structs (fun x => OffsetForLeaderTopic23.again version x {}) t.Topics)
theorem OffsetForLeaderEpochRequest.lawful : Lawful OffsetForLeaderEpochRequest.type OffsetForLeaderEpochRequest.layout :=
  ⟨OffsetForLeaderEpochRequest.emits, OffsetForLeaderEpochRequest.sized, OffsetForLeaderEpochRequest.reads, OffsetForLeaderEpochRequest.tame, OffsetForLeaderEpochRequest.calm, OffsetForLeaderEpochRequest.canon, OffsetForLeaderEpochRequest.again⟩

theorem OffsetForLeaderPartitionResult23.emits (version : Int16) (t : OffsetForLeaderPartitionResult23) :
    Emits (OffsetForLeaderPartitionResult23.encode version t) (OffsetForLeaderPartitionResult23.wire version t) :=
  (emits_int16 t.ErrorCode)
    |>.andThen (emits_int32 t.PartitionIndex)
    |>.andThen (Emits.onlyIf (emits_int32 t.LeaderEpoch))
    |>.andThen (emits_int64 t.EndOffset)
theorem OffsetForLeaderPartitionResult23.sized (version : Int16) (t : OffsetForLeaderPartitionResult23) :
    Sized (OffsetForLeaderPartitionResult23.size version t) (OffsetForLeaderPartitionResult23.wire version t) :=
  Grows.sized ((Grows.add (sized_int16 t.ErrorCode))
    |>.andThen (Grows.add (sized_int32 t.PartitionIndex))
    |>.andThen (Grows.onlyIf (Grows.add (sized_int32 t.LeaderEpoch)))
    |>.andThen (Grows.add (sized_int64 t.EndOffset)))
theorem OffsetForLeaderPartitionResult23.reads (version : Int16) (t : OffsetForLeaderPartitionResult23) (_h : t.Fits version) (t0 : OffsetForLeaderPartitionResult23) :
    Reads (OffsetForLeaderPartitionResult23.decode version t0) (OffsetForLeaderPartitionResult23.wire version t) (t.seen version t0) :=
  ((Step.field (set := fun (t : OffsetForLeaderPartitionResult23) x => { t with ErrorCode := x }) (reads_int16 t.ErrorCode))
    |>.andThen (Step.field (set := fun (t : OffsetForLeaderPartitionResult23) x => { t with PartitionIndex := x }) (reads_int32 t.PartitionIndex))
    |>.andThen (Step.optField (c := version ≥ 1) (set := fun (t : OffsetForLeaderPartitionResult23) x => { t with LeaderEpoch := x }) (·.LeaderEpoch) (fun _ => rfl) fun _ => reads_int32 t.LeaderEpoch)
    |>.andThen (Step.field (set := fun (t : OffsetForLeaderPartitionResult23) x => { t with EndOffset := x }) (reads_int64 t.EndOffset)) : Step _ _ _) t0
theorem OffsetForLeaderPartitionResult23.tame (version : Int16) (t0 : OffsetForLeaderPartitionResult23) : Tame (OffsetForLeaderPartitionResult23.decode version t0) :=
  ((TameStep.field tame_int16)
    |>.andThen (TameStep.field tame_int32)
    |>.andThen (TameStep.onlyIf (TameStep.field tame_int32))
    |>.andThen (TameStep.field tame_int64) : TameStep _) t0
theorem OffsetForLeaderPartitionResult23.calm (version : Int16) (t0 : OffsetForLeaderPartitionResult23) :
    Calm (OffsetForLeaderPartitionResult23.decode version t0) (fun _ => True) :=
  ((CalmStep.field tame_int16 calm_int16)
    |>.andThen (CalmStep.field tame_int32 calm_int32)
    |>.andThen (CalmStep.onlyIf (CalmStep.field tame_int32 calm_int32))
    |>.andThen (CalmStep.field tame_int64 calm_int64) : CalmStep _).2 t0
theorem OffsetForLeaderPartitionResult23.canon (version : Int16) (t : OffsetForLeaderPartitionResult23) (h : t.Canon version) :
    t.seen version {} = t :=
  OffsetForLeaderPartitionResult23.ext rfl rfl (canon_opt h.LeaderEpoch) rfl
theorem OffsetForLeaderPartitionResult23.again (version : Int16) (t t0 : OffsetForLeaderPartitionResult23) :
    OffsetForLeaderPartitionResult23.wire version (t.seen version t0) = OffsetForLeaderPartitionResult23.wire version t :=
  app_congr (app_congr (app_congr (rfl) (rfl)) (again_opt Wire.int32 t.LeaderEpoch t0.LeaderEpoch)) (rfl)
theorem OffsetForLeaderPartitionResult23.lawful : Lawful OffsetForLeaderPartitionResult23.type OffsetForLeaderPartitionResult23.layout :=
  ⟨OffsetForLeaderPartitionResult23.emits, OffsetForLeaderPartitionResult23.sized, OffsetForLeaderPartitionResult23.reads, OffsetForLeaderPartitionResult23.tame, OffsetForLeaderPartitionResult23.calm, OffsetForLeaderPartitionResult23.canon, OffsetForLeaderPartitionResult23.again⟩

theorem OffsetForLeaderTopicResult23.emits (version : Int16) (t : OffsetForLeaderTopicResult23) :
    Emits (OffsetForLeaderTopicResult23.encode version t) (OffsetForLeaderTopicResult23.wire version t) :=
  (emits_string t.Name)
    |>.andThen (emits_structs (OffsetForLeaderPartitionResult23.emits version) t.Partitions)
theorem OffsetForLeaderTopicResult23.sized (version : Int16) (t : OffsetForLeaderTopicResult23) :
    Sized (OffsetForLeaderTopicResult23.size version t) (OffsetForLeaderTopicResult23.wire version t) :=
  Grows.sized ((Grows.add (sized_string t.Name))
    |>.andThen (Grows.structs (OffsetForLeaderPartitionResult23.sized version) t.Partitions))
theorem OffsetForLeaderTopicResult23.reads (version : Int16) (t : OffsetForLeaderTopicResult23) (h : t.Fits version) (t0 : OffsetForLeaderTopicResult23) :
    Reads (OffsetForLeaderTopicResult23.decode version t0) (OffsetForLeaderTopicResult23.wire version t) (t.seen version t0) :=
  ((Step.field (set := fun (t : OffsetForLeaderTopicResult23) x => { t with Name := x }) (reads_string h.Name))
    |>.andThen (Step.structs (get := fun (t : OffsetForLeaderTopicResult23) => t.Partitions) (set := fun (t : OffsetForLeaderTopicResult23) x => { t with Partitions := x }) (fun x hx => OffsetForLeaderPartitionResult23.reads version x hx {}) h.Partitions) : Step _ _ _) t0
theorem OffsetForLeaderTopicResult23.tame (version : Int16) (t0 : OffsetForLeaderTopicResult23) : Tame (OffsetForLeaderTopicResult23.decode version t0) :=
  ((TameStep.field tame_string)
    |>.andThen (TameStep.structs (OffsetForLeaderPartitionResult23.tame version {})) : TameStep _) t0
theorem OffsetForLeaderTopicResult23.calm (version : Int16) (t0 : OffsetForLeaderTopicResult23) :
    Calm (OffsetForLeaderTopicResult23.decode version t0) (fun _ => True) :=
  ((CalmStep.field tame_string calm_string)
    |>.andThen (CalmStep.structs (OffsetForLeaderPartitionResult23.tame version {}) (OffsetForLeaderPartitionResult23.calm version {})) : CalmStep _).2 t0
theorem OffsetForLeaderTopicResult23.canon (version : Int16) (t : OffsetForLeaderTopicResult23) (h : t.Canon version) :
    t.seen version {} = t :=
  OffsetForLeaderTopicResult23.ext rfl (canon_structs (OffsetForLeaderPartitionResult23.canon version) h.Partitions)
theorem OffsetForLeaderTopicResult23.again (version : Int16) (t t0 : OffsetForLeaderTopicResult23) :
    OffsetForLeaderTopicResult23.wire version (t.seen version t0) = OffsetForLeaderTopicResult23.wire version t :=
  app_congr (rfl) (again_structs (fun x => OffsetForLeaderPartitionResult23.again version x {}) t.Partitions)
theorem OffsetForLeaderTopicResult23.lawful : Lawful OffsetForLeaderTopicResult23.type OffsetForLeaderTopicResult23.layout :=
  ⟨OffsetForLeaderTopicResult23.emits, OffsetForLeaderTopicResult23.sized, OffsetForLeaderTopicResult23.reads, OffsetForLeaderTopicResult23.tame, OffsetForLeaderTopicResult23.calm, OffsetForLeaderTopicResult23.canon, OffsetForLeaderTopicResult23.again⟩

theorem OffsetForLeaderEpochResponse.emits (version : Int16) (t : OffsetForLeaderEpochResponse) :
    Emits (OffsetForLeaderEpochResponse.encode version t) (OffsetForLeaderEpochResponse.wire version t) :=
  (Emits.onlyIf (emits_int32 t.ThrottleTimeMs))
    |>.andThen (emits_structs (OffsetForLeaderTopicResult23.emits version) t.Topics)
theorem OffsetForLeaderEpochResponse.sized (version : Int16) (t : OffsetForLeaderEpochResponse) :
    Sized (OffsetForLeaderEpochResponse.size version t) (OffsetForLeaderEpochResponse.wire version t) :=
  Grows.sized ((Grows.onlyIf (Grows.add (sized_int32 t.ThrottleTimeMs)))
    |>.andThen (Grows.structs (OffsetForLeaderTopicResult23.sized version) t.Topics))
theorem OffsetForLeaderEpochResponse.reads (version : Int16) (t : OffsetForLeaderEpochResponse) (h : t.Fits version) (t0 : OffsetForLeaderEpochResponse) :
    Reads (OffsetForLeaderEpochResponse.decode version t0) (OffsetForLeaderEpochResponse.wire version t) (t.seen version t0) :=
  ((Step.optField (c := version ≥ 2) (set := fun (t : OffsetForLeaderEpochResponse) x => { t with ThrottleTimeMs := x }) (·.ThrottleTimeMs) (fun _ => rfl) fun _ => reads_int32 t.ThrottleTimeMs)
    |>.andThen (Step.structs (get := fun (t : OffsetForLeaderEpochResponse) => t.Topics) (set := fun (t : OffsetForLeaderEpochResponse) x => { t with Topics := x }) (fun x hx => OffsetForLeaderTopicResult23.reads version x hx {}) h.Topics) : Step _ _ _) t0
theorem OffsetForLeaderEpochResponse.tame (version : Int16) (t0 : OffsetForLeaderEpochResponse) : Tame (OffsetForLeaderEpochResponse.decode version t0) :=
  ((TameStep.onlyIf (TameStep.field tame_int32))
    |>.andThen (TameStep.structs (OffsetForLeaderTopicResult23.tame version {})) : TameStep _) t0
theorem OffsetForLeaderEpochResponse.calm (version : Int16) (t0 : OffsetForLeaderEpochResponse) :
    Calm (OffsetForLeaderEpochResponse.decode version t0) (fun _ => True) :=
  ((CalmStep.onlyIf (CalmStep.field tame_int32 calm_int32))
    |>.andThen (CalmStep.structs (OffsetForLeaderTopicResult23.tame version {}) (OffsetForLeaderTopicResult23.calm version {})) : CalmStep _).2 t0
theorem OffsetForLeaderEpochResponse.canon (version : Int16) (t : OffsetForLeaderEpochResponse) (h : t.Canon version) :
    t.seen version {} = t :=
  OffsetForLeaderEpochResponse.ext (canon_opt h.ThrottleTimeMs) (canon_structs (OffsetForLeaderTopicResult23.canon version) h.Topics)
theorem OffsetForLeaderEpochResponse.again (version : Int16) (t t0 : OffsetForLeaderEpochResponse) :
    OffsetForLeaderEpochResponse.wire version (t.seen version t0) = OffsetForLeaderEpochResponse.wire version t :=
  app_congr (again_opt Wire.int32 t.ThrottleTimeMs t0.ThrottleTimeMs) (again_structs (fun x => OffsetForLeaderTopicResult23.again version x {}) t.Topics)
theorem OffsetForLeaderEpochResponse.lawful : Lawful OffsetForLeaderEpochResponse.type OffsetForLeaderEpochResponse.layout :=
  ⟨OffsetForLeaderEpochResponse.emits, OffsetForLeaderEpochResponse.sized, OffsetForLeaderEpochResponse.reads, OffsetForLeaderEpochResponse.tame, OffsetForLeaderEpochResponse.calm, OffsetForLeaderEpochResponse.canon, OffsetForLeaderEpochResponse.again⟩

end Kafka.Msg
