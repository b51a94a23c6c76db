import Verif.Message.StepLemmas
import Verif.Gen.Spec.DescribeLogDirs
/-!
Generated by tools/gen_messages.py: laws of the DescribeLogDirs messages.
-/
namespace Kafka.Msg

theorem DescribableLogDirTopic35.emits (version : Int16) (t : DescribableLogDirTopic35) :
    Emits (DescribableLogDirTopic35.encode version t) (DescribableLogDirTopic35.wire version t) :=
  (emits_string t.Topic)
    |>.andThen (emits_int32Array t.PartitionIndex)
theorem DescribableLogDirTopic35.sized (version : Int16) (t : DescribableLogDirTopic35) :
    Sized (DescribableLogDirTopic35.size version t) (DescribableLogDirTopic35.wire version t) :=
  Grows.sized ((Grows.add (sized_string t.Topic))
    |>.andThen (Grows.add (sized_int32Array t.PartitionIndex)))
theorem DescribableLogDirTopic35.reads (version : Int16) (t : DescribableLogDirTopic35) (h : t.Fits version) (t0 : DescribableLogDirTopic35) :
    Reads (DescribableLogDirTopic35.decode version t0) (DescribableLogDirTopic35.wire version t) (t.seen version t0) :=
  ((Step.field (set := fun (t : DescribableLogDirTopic35) x => { t with Topic := x }) (reads_string h.Topic))
    |>.andThen (Step.field (set := fun (t : DescribableLogDirTopic35) x => { t with PartitionIndex := x }) (reads_int32Array h.PartitionIndex)) : Step _ _ _) t0
theorem DescribableLogDirTopic35.tame (version : Int16) (t0 : DescribableLogDirTopic35) : Tame (DescribableLogDirTopic35.decode version t0) :=
  ((TameStep.field tame_string)
    |>.andThen (TameStep.field tame_int32Array) : TameStep _) t0
theorem DescribableLogDirTopic35.calm (version : Int16) (t0 : DescribableLogDirTopic35) :
    Calm (DescribableLogDirTopic35.decode version t0) (fun _ => True) :=
  ((CalmStep.field tame_string calm_string)
    |>.andThen (CalmStep.field tame_int32Array calm_int32Array) : CalmStep _).2 t0
theorem DescribableLogDirTopic35.canon (version : Int16) (t : DescribableLogDirTopic35) (_h : t.Canon version) :
    t.seen version {} = t :=
  DescribableLogDirTopic35.ext rfl rfl
theorem DescribableLogDirTopic35.again (version : Int16) (t t0 : DescribableLogDirTopic35) :
    DescribableLogDirTopic35.wire version (t.seen version t0) = DescribableLogDirTopic35.wire version t :=
  app_congr (rfl) (rfl)
theorem DescribableLogDirTopic35.lawful : Lawful DescribableLogDirTopic35.type DescribableLogDirTopic35.layout :=
  ⟨DescribableLogDirTopic35.emits, DescribableLogDirTopic35.sized, DescribableLogDirTopic35.reads, DescribableLogDirTopic35.tame, DescribableLogDirTopic35.calm, DescribableLogDirTopic35.canon, DescribableLogDirTopic35.again⟩

theorem DescribeLogDirsRequest.emits (version : Int16) (t : DescribeLogDirsRequest) :
    Emits (DescribeLogDirsRequest.encode version t) (DescribeLogDirsRequest.wire version t) :=
  emits_structs (DescribableLogDirTopic35.emits version) t.Topics
theorem DescribeLogDirsRequest.sized (version : Int16) (t : DescribeLogDirsRequest) :
    Sized (DescribeLogDirsRequest.size version t) (DescribeLogDirsRequest.wire version t) :=
  Grows.sized (Grows.structs (DescribableLogDirTopic35.sized version) t.Topics)
theorem DescribeLogDirsRequest.reads (version : Int16) (t : DescribeLogDirsRequest) (h : t.Fits version) (t0 : DescribeLogDirsRequest) :
    Reads (DescribeLogDirsRequest.decode version t0) (DescribeLogDirsRequest.wire version t) (t.seen version t0) :=
  (Step.structs (get := fun (t : DescribeLogDirsRequest) => t.Topics) (set := fun (t : DescribeLogDirsRequest) x => { t with Topics := x }) (fun x hx => DescribableLogDirTopic35.reads version x hx {}) h.Topics : Step _ _ _) t0
theorem DescribeLogDirsRequest.tame (version : Int16) (t0 : DescribeLogDirsRequest) : Tame (DescribeLogDirsRequest.decode version t0) :=
  (TameStep.structs (DescribableLogDirTopic35.tame version {}) : TameStep _) t0
theorem DescribeLogDirsRequest.calm (version : Int16) (t0 : DescribeLogDirsRequest) :
    Calm (DescribeLogDirsRequest.decode version t0) (fun _ => True) :=
  (CalmStep.structs (DescribableLogDirTopic35.tame version {}) (DescribableLogDirTopic35.calm version {}) : CalmStep _).2 t0
theorem DescribeLogDirsRequest.canon (version : Int16) (t : DescribeLogDirsRequest) (h : t.Canon version) :
    t.seen version {} = t :=
  DescribeLogDirsRequest.ext (canon_structs (DescribableLogDirTopic35.canon version) h.Topics)
theorem DescribeLogDirsRequest.again (version : Int16) (t t0 : DescribeLogDirsRequest) :
    DescribeLogDirsRequest.wire version (t.seen version t0) = DescribeLogDirsRequest.wire version t :=
  again_structs (fun x => DescribableLogDirTopic35.again version x {}) t.Topics
theorem DescribeLogDirsRequest.lawful : Lawful DescribeLogDirsRequest.type DescribeLogDirsRequest.layout :=
  ⟨DescribeLogDirsRequest.emits, DescribeLogDirsRequest.sized, DescribeLogDirsRequest.reads, DescribeLogDirsRequest.tame, DescribeLogDirsRequest.calm, DescribeLogDirsRequest.canon, DescribeLogDirsRequest.again⟩

theorem DescribeLogDirsPartition35.emits (version : Int16) (t : DescribeLogDirsPartition35) :
    Emits (DescribeLogDirsPartition35.encode version t) (DescribeLogDirsPartition35.wire version t) :=
  (emits_int32 t.PartitionIndex)
    |>.andThen (emits_int64 t.PartitionSize)
    |>.andThen (emits_int64 t.OffsetLag)
    |>.andThen (emits_bool t.IsFutureKey)
theorem DescribeLogDirsPartition35.sized (version : Int16) (t : DescribeLogDirsPartition35) :
    Sized (DescribeLogDirsPartition35.size version t) (DescribeLogDirsPartition35.wire version t) :=
  Grows.sized ((Grows.add (sized_int32 t.PartitionIndex))
    |>.andThen (Grows.add (sized_int64 t.PartitionSize))
    |>.andThen (Grows.add (sized_int64 t.OffsetLag))
    |>.andThen (Grows.add (sized_bool t.IsFutureKey)))
theorem DescribeLogDirsPartition35.reads (version : Int16) (t : DescribeLogDirsPartition35) (_h : t.Fits version) (t0 : DescribeLogDirsPartition35) :
    Reads (DescribeLogDirsPartition35.decode version t0) (DescribeLogDirsPartition35.wire version t) (t.seen version t0) :=
  ((Step.field (set := fun (t : DescribeLogDirsPartition35) x => { t with PartitionIndex := x }) (reads_int32 t.PartitionIndex))
    |>.andThen (Step.field (set := fun (t : DescribeLogDirsPartition35) x => { t with PartitionSize := x }) (reads_int64 t.PartitionSize))
    |>.andThen (Step.field (set := fun (t : DescribeLogDirsPartition35) x => { t with OffsetLag := x }) (reads_int64 t.OffsetLag))
    |>.andThen (Step.field (set := fun (t : DescribeLogDirsPartition35) x => { t with IsFutureKey := x }) (reads_bool t.IsFutureKey)) : Step _ _ _) t0
theorem DescribeLogDirsPartition35.tame (version : Int16) (t0 : DescribeLogDirsPartition35) : Tame (DescribeLogDirsPartition35.decode version t0) :=
  ((TameStep.field tame_int32)
    |>.andThen (TameStep.field tame_int64)
    |>.andThen (TameStep.field tame_int64)
    |>.andThen (TameStep.field tame_bool) : TameStep _) t0
theorem DescribeLogDirsPartition35.calm (version : Int16) (t0 : DescribeLogDirsPartition35) :
    Calm (DescribeLogDirsPartition35.decode version t0) (fun _ => True) :=
  ((CalmStep.field tame_int32 calm_int32)
    |>.andThen (CalmStep.field tame_int64 calm_int64)
    |>.andThen (CalmStep.field tame_int64 calm_int64)
    |>.andThen (CalmStep.field tame_bool calm_bool) : CalmStep _).2 t0
theorem DescribeLogDirsPartition35.canon (version : Int16) (t : DescribeLogDirsPartition35) (_h : t.Canon version) :
    t.seen version {} = t :=
  DescribeLogDirsPartition35.ext rfl rfl rfl rfl
theorem DescribeLogDirsPartition35.again (version : Int16) (t t0 : DescribeLogDirsPartition35) :
    DescribeLogDirsPartition35.wire version (t.seen version t0) = DescribeLogDirsPartition35.wire version t :=
  app_congr (app_congr (app_congr (rfl) (rfl)) (rfl)) (rfl)
theorem DescribeLogDirsPartition35.lawful : Lawful DescribeLogDirsPartition35.type DescribeLogDirsPartition35.layout :=
  ⟨DescribeLogDirsPartition35.emits, DescribeLogDirsPartition35.sized, DescribeLogDirsPartition35.reads, DescribeLogDirsPartition35.tame, DescribeLogDirsPartition35.calm, DescribeLogDirsPartition35.canon, DescribeLogDirsPartition35.again⟩

theorem DescribeLogDirsTopic35.emits (version : Int16) (t : DescribeLogDirsTopic35) :
    Emits (DescribeLogDirsTopic35.encode version t) (DescribeLogDirsTopic35.wire version t) :=
  (emits_string t.Name)
    |>.andThen (emits_structs (DescribeLogDirsPartition35.emits version) t.Partitions)
theorem DescribeLogDirsTopic35.sized (version : Int16) (t : DescribeLogDirsTopic35) :
    Sized (DescribeLogDirsTopic35.size version t) (DescribeLogDirsTopic35.wire version t) :=
  Grows.sized ((Grows.add (sized_string t.Name))
    |>.andThen (Grows.structs (DescribeLogDirsPartition35.sized version) t.Partitions))
theorem DescribeLogDirsTopic35.reads (version : Int16) (t : DescribeLogDirsTopic35) (h : t.Fits version) (t0 : DescribeLogDirsTopic35) :
    Reads (DescribeLogDirsTopic35.decode version t0) (DescribeLogDirsTopic35.wire version t) (t.seen version t0) :=
  ((Step.field (set := fun (t : DescribeLogDirsTopic35) x => { t with Name := x }) (reads_string h.Name))
    |>.andThen (Step.structs (get := fun (t : DescribeLogDirsTopic35) => t.Partitions) (set := fun (t : DescribeLogDirsTopic35) x => { t with Partitions := x }) (fun x hx => DescribeLogDirsPartition35.reads version x hx {}) h.Partitions) : Step _ _ _) t0
theorem DescribeLogDirsTopic35.tame (version : Int16) (t0 : DescribeLogDirsTopic35) : Tame (DescribeLogDirsTopic35.decode version t0) :=
  ((TameStep.field tame_string)
    |>.andThen (TameStep.structs (DescribeLogDirsPartition35.tame version {})) : TameStep _) t0
theorem DescribeLogDirsTopic35.calm (version : Int16) (t0 : DescribeLogDirsTopic35) :
    Calm (DescribeLogDirsTopic35.decode version t0) (fun _ => True) :=
  ((CalmStep.field tame_string calm_string)
    |>.andThen (CalmStep.structs (DescribeLogDirsPartition35.tame version {}) (DescribeLogDirsPartition35.calm version {})) : CalmStep _).2 t0
theorem DescribeLogDirsTopic35.canon (version : Int16) (t : DescribeLogDirsTopic35) (h : t.Canon version) :
    t.seen version {} = t :=
  DescribeLogDirsTopic35.ext rfl (canon_structs (DescribeLogDirsPartition35.canon version) h.Partitions)
theorem DescribeLogDirsTopic35.again (version : Int16) (t t0 : DescribeLogDirsTopic35) :
    DescribeLogDirsTopic35.wire version (t.seen version t0) = DescribeLogDirsTopic35.wire version t :=
  app_congr (rfl) (again_structs (fun x => DescribeLogDirsPartition35.again version x {}) t.Partitions)
theorem DescribeLogDirsTopic35.lawful : Lawful DescribeLogDirsTopic35.type DescribeLogDirsTopic35.layout :=
  ⟨DescribeLogDirsTopic35.emits, DescribeLogDirsTopic35.sized, DescribeLogDirsTopic35.reads, DescribeLogDirsTopic35.tame, DescribeLogDirsTopic35.calm, DescribeLogDirsTopic35.canon, DescribeLogDirsTopic35.again⟩

theorem DescribeLogDirsResult35.emits (version : Int16) (t : DescribeLogDirsResult35) :
    Emits (DescribeLogDirsResult35.encode version t) (DescribeLogDirsResult35.wire version t) :=
  (emits_int16 t.ErrorCode)
    |>.andThen (emits_string t.LogDir)
    |>.andThen (emits_structs (DescribeLogDirsTopic35.emits version) t.Topics)
theorem DescribeLogDirsResult35.sized (version : Int16) (t : DescribeLogDirsResult35) :
    Sized (DescribeLogDirsResult35.size version t) (DescribeLogDirsResult35.wire version t) :=
  Grows.sized ((Grows.add (sized_int16 t.ErrorCode))
    |>.andThen (Grows.add (sized_string t.LogDir))
    |>.andThen (Grows.structs (DescribeLogDirsTopic35.sized version) t.Topics))
theorem DescribeLogDirsResult35.reads (version : Int16) (t : DescribeLogDirsResult35) (h : t.Fits version) (t0 : DescribeLogDirsResult35) :
    Reads (DescribeLogDirsResult35.decode version t0) (DescribeLogDirsResult35.wire version t) (t.seen version t0) :=
  ((Step.field (set := fun (t : DescribeLogDirsResult35) x => { t with ErrorCode := x }) (reads_int16 t.ErrorCode))
    |>.andThen (Step.field (set := fun (t : DescribeLogDirsResult35) x => { t with LogDir := x }) (reads_string h.LogDir))
    |>.andThen (Step.structs (get := fun (t : DescribeLogDirsResult35) => t.Topics) (set := fun (t : DescribeLogDirsResult35) x => { t with Topics := x }) (fun x hx => DescribeLogDirsTopic35.reads version x hx {}) h.Topics) : Step _ _ _) t0
theorem DescribeLogDirsResult35.tame (version : Int16) (t0 : DescribeLogDirsResult35) : Tame (DescribeLogDirsResult35.decode version t0) :=
  ((TameStep.field tame_int16)
    |>.andThen (TameStep.field tame_string)
    |>.andThen (TameStep.structs (DescribeLogDirsTopic35.tame version {})) : TameStep _) t0
theorem DescribeLogDirsResult35.calm (version : Int16) (t0 : DescribeLogDirsResult35) :
    Calm (DescribeLogDirsResult35.decode version t0) (fun _ => True) :=
  ((CalmStep.field tame_int16 calm_int16)
    |>.andThen (CalmStep.field tame_string calm_string)
    |>.andThen (CalmStep.structs (DescribeLogDirsTopic35.tame version {}) (DescribeLogDirsTopic35.calm version {})) : CalmStep _).2 t0
theorem DescribeLogDirsResult35.canon (version : Int16) (t : DescribeLogDirsResult35) (h : t.Canon version) :
    t.seen version {} = t :=
  DescribeLogDirsResult35.ext rfl rfl (canon_structs (DescribeLogDirsTopic35.canon version) h.Topics)
theorem DescribeLogDirsResult35.again (version : Int16) (t t0 : DescribeLogDirsResult35) :
    DescribeLogDirsResult35.wire version (t.seen version t0) = DescribeLogDirsResult35.wire version t :=
  app_congr (app_congr (rfl) (rfl)) (again_structs (fun x => DescribeLogDirsTopic35.again version x {}) t.Topics)
theorem DescribeLogDirsResult35.lawful : Lawful DescribeLogDirsResult35.type DescribeLogDirsResult35.layout :=
  ⟨DescribeLogDirsResult35.emits, DescribeLogDirsResult35.sized, DescribeLogDirsResult35.reads, DescribeLogDirsResult35.tame, DescribeLogDirsResult35.calm, DescribeLogDirsResult35.canon, DescribeLogDirsResult35.again⟩

theorem DescribeLogDirsResponse.emits (version : Int16) (t : DescribeLogDirsResponse) :
    Emits (DescribeLogDirsResponse.encode version t) (DescribeLogDirsResponse.wire version t) :=
  (emits_int32 t.ThrottleTimeMs)
    |>.andThen (emits_structs (DescribeLogDirsResult35.emits version) t.Results)
theorem DescribeLogDirsResponse.sized (version : Int16) (t : DescribeLogDirsResponse) :
    Sized (DescribeLogDirsResponse.size version t) (DescribeLogDirsResponse.wire version t) :=
  Grows.sized ((Grows.add (sized_int32 t.ThrottleTimeMs))
    |>.andThen (Grows.structs (DescribeLogDirsResult35.sized version) t.Results))
theorem DescribeLogDirsResponse.reads (version : Int16) (t : DescribeLogDirsResponse) (h : t.Fits version) (t0 : DescribeLogDirsResponse) :
    Reads (DescribeLogDirsResponse.decode version t0) (DescribeLogDirsResponse.wire version t) (t.seen version t0) :=
  ((Step.field (set := fun (t : DescribeLogDirsResponse) x => { t with ThrottleTimeMs := x }) (reads_int32 t.ThrottleTimeMs))
    |>.andThen (Step.structs (get := fun (t : DescribeLogDirsResponse) => t.Results) (set := fun (t : DescribeLogDirsResponse) x => { t with Results := x }) (fun x hx => DescribeLogDirsResult35.reads version x hx {}) h.Results) : Step _ _ _) t0
theorem DescribeLogDirsResponse.tame (version : Int16) (t0 : DescribeLogDirsResponse) : Tame (DescribeLogDirsResponse.decode version t0) :=
  ((TameStep.field tame_int32)
    |>.andThen (TameStep.structs (DescribeLogDirsResult35.tame version {})) : TameStep _) t0
theorem DescribeLogDirsResponse.calm (version : Int16) (t0 : DescribeLogDirsResponse) :
    Calm (DescribeLogDirsResponse.decode version t0) (fun _ => True) :=
  ((CalmStep.field tame_int32 calm_int32)
    |>.andThen (CalmStep.structs (DescribeLogDirsResult35.tame version {}) (DescribeLogDirsResult35.calm version {})) : CalmStep _).2 t0
theorem DescribeLogDirsResponse.canon (version : Int16) (t : DescribeLogDirsResponse) (h : t.Canon version) :
    t.seen version {} = t :=
  DescribeLogDirsResponse.ext rfl (canon_structs (DescribeLogDirsResult35.canon version) h.Results)
theorem DescribeLogDirsResponse.again (version : Int16) (t t0 : DescribeLogDirsResponse) :
    DescribeLogDirsResponse.wire version (t.seen version t0) = DescribeLogDirsResponse.wire version t :=
  app_congr (rfl) (again_structs (fun x => DescribeLogDirsResult35.again version x {}) t.Results)
theorem DescribeLogDirsResponse.lawful : Lawful DescribeLogDirsResponse.type DescribeLogDirsResponse.layout :=
  ⟨DescribeLogDirsResponse.emits, DescribeLogDirsResponse.sized, DescribeLogDirsResponse.reads, DescribeLogDirsResponse.tame, DescribeLogDirsResponse.calm, DescribeLogDirsResponse.canon, DescribeLogDirsResponse.again⟩

end Kafka.Msg
