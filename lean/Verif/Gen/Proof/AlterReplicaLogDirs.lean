import Verif.Message.StepLemmas
import Verif.Gen.Spec.AlterReplicaLogDirs
/-!
Generated by tools/gen_messages.py: laws of the AlterReplicaLogDirs messages.
-/
namespace Kafka.Msg

theorem AlterReplicaLogDirTopic34.emits (version : Int16) (t : AlterReplicaLogDirTopic34) :
    Emits (AlterReplicaLogDirTopic34.encode version t) (AlterReplicaLogDirTopic34.wire version t) :=
  (emits_string t.Name)
    |>.andThen (emits_int32Array t.Partitions)
theorem AlterReplicaLogDirTopic34.sized (version : Int16) (t : AlterReplicaLogDirTopic34) :
    Sized (AlterReplicaLogDirTopic34.size version t) (AlterReplicaLogDirTopic34.wire version t) :=
  Grows.sized ((Grows.add (sized_string t.Name))
    |>.andThen (Grows.add (sized_int32Array t.Partitions)))
theorem AlterReplicaLogDirTopic34.reads (version : Int16) (t : AlterReplicaLogDirTopic34) (h : t.Fits version) (t0 : AlterReplicaLogDirTopic34) :
    Reads (AlterReplicaLogDirTopic34.decode version t0) (AlterReplicaLogDirTopic34.wire version t) (t.seen version t0) :=
  ((Step.field (set := fun (t : AlterReplicaLogDirTopic34) x => { t with Name := x }) (reads_string h.Name))
    |>.andThen (Step.field (set := fun (t : AlterReplicaLogDirTopic34) x => { t with Partitions := x }) (reads_int32Array h.Partitions)) : Step _ _ _) t0
theorem AlterReplicaLogDirTopic34.tame (version : Int16) (t0 : AlterReplicaLogDirTopic34) : Tame (AlterReplicaLogDirTopic34.decode version t0) :=
  ((TameStep.field tame_string)
    |>.andThen (TameStep.field tame_int32Array) : TameStep _) t0
theorem AlterReplicaLogDirTopic34.calm (version : Int16) (t0 : AlterReplicaLogDirTopic34) :
    Calm (AlterReplicaLogDirTopic34.decode version t0) (fun _ => True) :=
  ((CalmStep.field tame_string calm_string)
    |>.andThen (CalmStep.field tame_int32Array calm_int32Array) : CalmStep _).2 t0
theorem AlterReplicaLogDirTopic34.canon (version : Int16) (t : AlterReplicaLogDirTopic34) (_h : t.Canon version) :
    t.seen version {} = t :=
  AlterReplicaLogDirTopic34.ext rfl rfl
theorem AlterReplicaLogDirTopic34.again (version : Int16) (t t0 : AlterReplicaLogDirTopic34) :
    AlterReplicaLogDirTopic34.wire version (t.seen version t0) = AlterReplicaLogDirTopic34.wire version t :=
  app_congr (rfl) (rfl)
theorem AlterReplicaLogDirTopic34.lawful : Lawful AlterReplicaLogDirTopic34.type AlterReplicaLogDirTopic34.layout :=
  ⟨AlterReplicaLogDirTopic34.emits, AlterReplicaLogDirTopic34.sized, AlterReplicaLogDirTopic34.reads, AlterReplicaLogDirTopic34.tame, AlterReplicaLogDirTopic34.calm, AlterReplicaLogDirTopic34.canon, AlterReplicaLogDirTopic34.again⟩

theorem AlterReplicaLogDir34.emits (version : Int16) (t : AlterReplicaLogDir34) :
    Emits (AlterReplicaLogDir34.encode version t) (AlterReplicaLogDir34.wire version t) :=
  (emits_string t.Path)
    |>.andThen (emits_structs (AlterReplicaLogDirTopic34.emits version) t.Topics)
theorem AlterReplicaLogDir34.sized (version : Int16) (t : AlterReplicaLogDir34) :
    Sized (AlterReplicaLogDir34.size version t) (AlterReplicaLogDir34.wire version t) :=
  Grows.sized ((Grows.add (sized_string t.Path))
    |>.andThen (Grows.structs (AlterReplicaLogDirTopic34.sized version) t.Topics))
theorem AlterReplicaLogDir34.reads (version : Int16) (t : AlterReplicaLogDir34) (h : t.Fits version) (t0 : AlterReplicaLogDir34) :
    Reads (AlterReplicaLogDir34.decode version t0) (AlterReplicaLogDir34.wire version t) (t.seen version t0) :=
  ((Step.field (set := fun (t : AlterReplicaLogDir34) x => { t with Path := x }) (reads_string h.Path))
    |>.andThen (Step.structs (get := fun (t : AlterReplicaLogDir34) => t.Topics) (set := fun (t : AlterReplicaLogDir34) x => { t with Topics := x }) (fun x hx => AlterReplicaLogDirTopic34.reads version x hx {}) h.Topics) : Step _ _ _) t0
theorem AlterReplicaLogDir34.tame (version : Int16) (t0 : AlterReplicaLogDir34) : Tame (AlterReplicaLogDir34.decode version t0) :=
  ((TameStep.field tame_string)
    |>.andThen (TameStep.structs (AlterReplicaLogDirTopic34.tame version {})) : TameStep _) t0
theorem AlterReplicaLogDir34.calm (version : Int16) (t0 : AlterReplicaLogDir34) :
    Calm (AlterReplicaLogDir34.decode version t0) (fun _ => True) :=
  ((CalmStep.field tame_string calm_string)
    |>.andThen (CalmStep.structs (AlterReplicaLogDirTopic34.tame version {}) (AlterReplicaLogDirTopic34.calm version {})) : CalmStep _).2 t0
theorem AlterReplicaLogDir34.canon (version : Int16) (t : AlterReplicaLogDir34) (h : t.Canon version) :
    t.seen version {} = t :=
  AlterReplicaLogDir34.ext rfl (canon_structs (AlterReplicaLogDirTopic34.canon version) h.Topics)
theorem AlterReplicaLogDir34.again (version : Int16) (t t0 : AlterReplicaLogDir34) :
    AlterReplicaLogDir34.wire version (t.seen version t0) = AlterReplicaLogDir34.wire version t :=
  app_congr (rfl) (again_structs (fun x => AlterReplicaLogDirTopic34.again version x {}) t.Topics)
theorem AlterReplicaLogDir34.lawful : Lawful AlterReplicaLogDir34.type AlterReplicaLogDir34.layout :=
  ⟨AlterReplicaLogDir34.emits, AlterReplicaLogDir34.sized, AlterReplicaLogDir34.reads, AlterReplicaLogDir34.tame, AlterReplicaLogDir34.calm, AlterReplicaLogDir34.canon, AlterReplicaLogDir34.again⟩

theorem AlterReplicaLogDirsRequest.emits (version : Int16) (t : AlterReplicaLogDirsRequest) :
    Emits (AlterReplicaLogDirsRequest.encode version t) (AlterReplicaLogDirsRequest.wire version t) :=
  emits_structs (AlterReplicaLogDir34.emits version) t.Dirs
theorem AlterReplicaLogDirsRequest.sized (version : Int16) (t : AlterReplicaLogDirsRequest) :
    Sized (AlterReplicaLogDirsRequest.size version t) (AlterReplicaLogDirsRequest.wire version t) :=
  Grows.sized (Grows.structs (AlterReplicaLogDir34.sized version) t.Dirs)
theorem AlterReplicaLogDirsRequest.reads (version : Int16) (t : AlterReplicaLogDirsRequest) (h : t.Fits version) (t0 : AlterReplicaLogDirsRequest) :
    Reads (AlterReplicaLogDirsRequest.decode version t0) (AlterReplicaLogDirsRequest.wire version t) (t.seen version t0) :=
  (Step.structs (get := fun (t : AlterReplicaLogDirsRequest) => t.Dirs) (set := fun (t : AlterReplicaLogDirsRequest) x => { t with Dirs := x }) (fun x hx => AlterReplicaLogDir34.reads version x hx {}) h.Dirs : Step _ _ _) t0
theorem AlterReplicaLogDirsRequest.tame (version : Int16) (t0 : AlterReplicaLogDirsRequest) : Tame (AlterReplicaLogDirsRequest.decode version t0) :=
  (TameStep.structs (AlterReplicaLogDir34.tame version {}) : TameStep _) t0
theorem AlterReplicaLogDirsRequest.calm (version : Int16) (t0 : AlterReplicaLogDirsRequest) :
    Calm (AlterReplicaLogDirsRequest.decode version t0) (fun _ => True) :=
  (CalmStep.structs (AlterReplicaLogDir34.tame version {}) (AlterReplicaLogDir34.calm version {}) : CalmStep _).2 t0
theorem AlterReplicaLogDirsRequest.canon (version : Int16) (t : AlterReplicaLogDirsRequest) (h : t.Canon version) :
    t.seen version {} = t :=
  AlterReplicaLogDirsRequest.ext (canon_structs (AlterReplicaLogDir34.canon version) h.Dirs)
theorem AlterReplicaLogDirsRequest.again (version : Int16) (t t0 : AlterReplicaLogDirsRequest) :
    AlterReplicaLogDirsRequest.wire version (t.seen version t0) = AlterReplicaLogDirsRequest.wire version t :=
  again_structs (fun x => AlterReplicaLogDir34.again version x {}) t.Dirs
theorem AlterReplicaLogDirsRequest.lawful : Lawful AlterReplicaLogDirsRequest.type AlterReplicaLogDirsRequest.layout :=
  ⟨AlterReplicaLogDirsRequest.emits, AlterReplicaLogDirsRequest.sized, AlterReplicaLogDirsRequest.reads, AlterReplicaLogDirsRequest.tame, AlterReplicaLogDirsRequest.calm, AlterReplicaLogDirsRequest.canon, AlterReplicaLogDirsRequest.again⟩

theorem AlterReplicaLogDirPartitionResult34.emits (version : Int16) (t : AlterReplicaLogDirPartitionResult34) :
    Emits (AlterReplicaLogDirPartitionResult34.encode version t) (AlterReplicaLogDirPartitionResult34.wire version t) :=
  (emits_int32 t.PartitionIndex)
    |>.andThen (emits_int16 t.ErrorCode)
theorem AlterReplicaLogDirPartitionResult34.sized (version : Int16) (t : AlterReplicaLogDirPartitionResult34) :
    Sized (AlterReplicaLogDirPartitionResult34.size version t) (AlterReplicaLogDirPartitionResult34.wire version t) :=
  Grows.sized ((Grows.add (sized_int32 t.PartitionIndex))
    |>.andThen (Grows.add (sized_int16 t.ErrorCode)))
theorem AlterReplicaLogDirPartitionResult34.reads (version : Int16) (t : AlterReplicaLogDirPartitionResult34) (_h : t.Fits version) (t0 : AlterReplicaLogDirPartitionResult34) :
    Reads (AlterReplicaLogDirPartitionResult34.decode version t0) (AlterReplicaLogDirPartitionResult34.wire version t) (t.seen version t0) :=
  ((Step.field (set := fun (t : AlterReplicaLogDirPartitionResult34) x => { t with PartitionIndex := x }) (reads_int32 t.PartitionIndex))
    |>.andThen (Step.field (set := fun (t : AlterReplicaLogDirPartitionResult34) x => { t with ErrorCode := x }) (reads_int16 t.ErrorCode)) : Step _ _ _) t0
theorem AlterReplicaLogDirPartitionResult34.tame (version : Int16) (t0 : AlterReplicaLogDirPartitionResult34) : Tame (AlterReplicaLogDirPartitionResult34.decode version t0) :=
  ((TameStep.field tame_int32)
    |>.andThen (TameStep.field tame_int16) : TameStep _) t0
theorem AlterReplicaLogDirPartitionResult34.calm (version : Int16) (t0 : AlterReplicaLogDirPartitionResult34) :
    Calm (AlterReplicaLogDirPartitionResult34.decode version t0) (fun _ => True) :=
  ((CalmStep.field tame_int32 calm_int32)
    |>.andThen (CalmStep.field tame_int16 calm_int16) : CalmStep _).2 t0
theorem AlterReplicaLogDirPartitionResult34.canon (version : Int16) (t : AlterReplicaLogDirPartitionResult34) (_h : t.Canon version) :
    t.seen version {} = t :=
  AlterReplicaLogDirPartitionResult34.ext rfl rfl
theorem AlterReplicaLogDirPartitionResult34.again (version : Int16) (t t0 : AlterReplicaLogDirPartitionResult34) :
    AlterReplicaLogDirPartitionResult34.wire version (t.seen version t0) = AlterReplicaLogDirPartitionResult34.wire version t :=
  app_congr (rfl) (rfl)
theorem AlterReplicaLogDirPartitionResult34.lawful : Lawful AlterReplicaLogDirPartitionResult34.type AlterReplicaLogDirPartitionResult34.layout :=
  ⟨AlterReplicaLogDirPartitionResult34.emits, AlterReplicaLogDirPartitionResult34.sized, AlterReplicaLogDirPartitionResult34.reads, AlterReplicaLogDirPartitionResult34.tame, AlterReplicaLogDirPartitionResult34.calm, AlterReplicaLogDirPartitionResult34.canon, AlterReplicaLogDirPartitionResult34.again⟩

theorem AlterReplicaLogDirTopicResult34.emits (version : Int16) (t : AlterReplicaLogDirTopicResult34) :
    Emits (AlterReplicaLogDirTopicResult34.encode version t) (AlterReplicaLogDirTopicResult34.wire version t) :=
  (emits_string t.TopicName)
    |>.andThen (emits_structs (AlterReplicaLogDirPartitionResult34.emits version) t.Partitions)
theorem AlterReplicaLogDirTopicResult34.sized (version : Int16) (t : AlterReplicaLogDirTopicResult34) :
    Sized (AlterReplicaLogDirTopicResult34.size version t) (AlterReplicaLogDirTopicResult34.wire version t) :=
  Grows.sized ((Grows.add (sized_string t.TopicName))
    |>.andThen (Grows.structs (AlterReplicaLogDirPartitionResult34.sized version) t.Partitions))
theorem AlterReplicaLogDirTopicResult34.reads (version : Int16) (t : AlterReplicaLogDirTopicResult34) (h : t.Fits version) (t0 : AlterReplicaLogDirTopicResult34) :
    Reads (AlterReplicaLogDirTopicResult34.decode version t0) (AlterReplicaLogDirTopicResult34.wire version t) (t.seen version t0) :=
  ((Step.field (set := fun (t : AlterReplicaLogDirTopicResult34) x => { t with TopicName := x }) (reads_string h.TopicName))
    |>.andThen (Step.structs (get := fun (t : AlterReplicaLogDirTopicResult34) => t.Partitions) (set := fun (t : AlterReplicaLogDirTopicResult34) x => { t with Partitions := x }) (fun x hx => AlterReplicaLogDirPartitionResult34.reads version x hx {}) h.Partitions) : Step _ _ _) t0
theorem AlterReplicaLogDirTopicResult34.tame (version : Int16) (t0 : AlterReplicaLogDirTopicResult34) : Tame (AlterReplicaLogDirTopicResult34.decode version t0) :=
  ((TameStep.field tame_string)
    |>.andThen (TameStep.structs (AlterReplicaLogDirPartitionResult34.tame version {})) : TameStep _) t0
theorem AlterReplicaLogDirTopicResult34.calm (version : Int16) (t0 : AlterReplicaLogDirTopicResult34) :
    Calm (AlterReplicaLogDirTopicResult34.decode version t0) (fun _ => True) :=
  ((CalmStep.field tame_string calm_string)
    |>.andThen (CalmStep.structs (AlterReplicaLogDirPartitionResult34.tame version {}) (AlterReplicaLogDirPartitionResult34.calm version {})) : CalmStep _).2 t0
theorem AlterReplicaLogDirTopicResult34.canon (version : Int16) (t : AlterReplicaLogDirTopicResult34) (h : t.Canon version) :
    t.seen version {} = t :=
  AlterReplicaLogDirTopicResult34.ext rfl (canon_structs (AlterReplicaLogDirPartitionResult34.canon version) h.Partitions)
theorem AlterReplicaLogDirTopicResult34.again (version : Int16) (t t0 : AlterReplicaLogDirTopicResult34) :
    AlterReplicaLogDirTopicResult34.wire version (t.seen version t0) = AlterReplicaLogDirTopicResult34.wire version t :=
  app_congr (rfl) (again_structs (fun x => AlterReplicaLogDirPartitionResult34.again version x {}) t.Partitions)
theorem AlterReplicaLogDirTopicResult34.lawful : Lawful AlterReplicaLogDirTopicResult34.type AlterReplicaLogDirTopicResult34.layout :=
  ⟨AlterReplicaLogDirTopicResult34.emits, AlterReplicaLogDirTopicResult34.sized, AlterReplicaLogDirTopicResult34.reads, AlterReplicaLogDirTopicResult34.tame, AlterReplicaLogDirTopicResult34.calm, AlterReplicaLogDirTopicResult34.canon, AlterReplicaLogDirTopicResult34.again⟩

theorem AlterReplicaLogDirsResponse.emits (version : Int16) (t : AlterReplicaLogDirsResponse) :
    Emits (AlterReplicaLogDirsResponse.encode version t) (AlterReplicaLogDirsResponse.wire version t) :=
  (emits_int32 t.ThrottleTimeMs)
    |>.andThen (emits_structs (AlterReplicaLogDirTopicResult34.emits version) t.Results)
theorem AlterReplicaLogDirsResponse.sized (version : Int16) (t : AlterReplicaLogDirsResponse) :
    Sized (AlterReplicaLogDirsResponse.size version t) (AlterReplicaLogDirsResponse.wire version t) :=
  Grows.sized ((Grows.add (sized_int32 t.ThrottleTimeMs))
    |>.andThen (Grows.structs (AlterReplicaLogDirTopicResult34.sized version) t.Results))
theorem AlterReplicaLogDirsResponse.reads (version : Int16) (t : AlterReplicaLogDirsResponse) (h : t.Fits version) (t0 : AlterReplicaLogDirsResponse) :
    Reads (AlterReplicaLogDirsResponse.decode version t0) (AlterReplicaLogDirsResponse.wire version t) (t.seen version t0) :=
  ((Step.field (set := fun (t : AlterReplicaLogDirsResponse) x => { t with ThrottleTimeMs := x }) (reads_int32 t.ThrottleTimeMs))
    |>.andThen (Step.structs (get := fun (t : AlterReplicaLogDirsResponse) => t.Results) (set := fun (t : AlterReplicaLogDirsResponse) x => { t with Results := x }) (fun x hx => AlterReplicaLogDirTopicResult34.reads version x hx {}) h.Results) : Step _ _ _) t0
theorem AlterReplicaLogDirsResponse.tame (version : Int16) (t0 : AlterReplicaLogDirsResponse) : Tame (AlterReplicaLogDirsResponse.decode version t0) :=
  ((TameStep.field tame_int32)
    |>.andThen (TameStep.structs (AlterReplicaLogDirTopicResult34.tame version {})) : TameStep _) t0
theorem AlterReplicaLogDirsResponse.calm (version : Int16) (t0 : AlterReplicaLogDirsResponse) :
    Calm (AlterReplicaLogDirsResponse.decode version t0) (fun _ => True) :=
  ((CalmStep.field tame_int32 calm_int32)
    |>.andThen (CalmStep.structs (AlterReplicaLogDirTopicResult34.tame version {}) (AlterReplicaLogDirTopicResult34.calm version {})) : CalmStep _).2 t0
theorem AlterReplicaLogDirsResponse.canon (version : Int16) (t : AlterReplicaLogDirsResponse) (h : t.Canon version) :
    t.seen version {} = t :=
  AlterReplicaLogDirsResponse.ext rfl (canon_structs (AlterReplicaLogDirTopicResult34.canon version) h.Results)
theorem AlterReplicaLogDirsResponse.again (version : Int16) (t t0 : AlterReplicaLogDirsResponse) :
    AlterReplicaLogDirsResponse.wire version (t.seen version t0) = AlterReplicaLogDirsResponse.wire version t :=
  app_congr (rfl) (again_structs (fun x => AlterReplicaLogDirTopicResult34.again version x {}) t.Results)
theorem AlterReplicaLogDirsResponse.lawful : Lawful AlterReplicaLogDirsResponse.type AlterReplicaLogDirsResponse.layout :=
  ⟨AlterReplicaLogDirsResponse.emits, AlterReplicaLogDirsResponse.sized, AlterReplicaLogDirsResponse.reads, AlterReplicaLogDirsResponse.tame, AlterReplicaLogDirsResponse.calm, AlterReplicaLogDirsResponse.canon, AlterReplicaLogDirsResponse.again⟩

end Kafka.Msg
