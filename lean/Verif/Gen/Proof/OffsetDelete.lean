import Verif.Message.StepLemmas
import Verif.Gen.Spec.OffsetDelete
/-!
Generated by tools/gen_messages.py: laws of the OffsetDelete messages.
-/
namespace Kafka.Msg

theorem OffsetDeleteRequestPartition47.emits (version : Int16) (t : OffsetDeleteRequestPartition47) :
    Emits (OffsetDeleteRequestPartition47.encode version t) (OffsetDeleteRequestPartition47.wire version t) :=
  emits_int32 t.PartitionIndex
theorem OffsetDeleteRequestPartition47.sized (version : Int16) (t : OffsetDeleteRequestPartition47) :
    Sized (OffsetDeleteRequestPartition47.size version t) (OffsetDeleteRequestPartition47.wire version t) :=
  Grows.sized (Grows.add (sized_int32 t.PartitionIndex))
theorem OffsetDeleteRequestPartition47.reads (version : Int16) (t : OffsetDeleteRequestPartition47) (_h : t.Fits version) (t0 : OffsetDeleteRequestPartition47) :
    Reads (OffsetDeleteRequestPartition47.decode version t0) (OffsetDeleteRequestPartition47.wire version t) (t.seen version t0) :=
  (Step.field (set := fun (t : OffsetDeleteRequestPartition47) x => { t with PartitionIndex := x }) (reads_int32 t.PartitionIndex) : Step _ _ _) t0
theorem OffsetDeleteRequestPartition47.tame (version : Int16) (t0 : OffsetDeleteRequestPartition47) : Tame (OffsetDeleteRequestPartition47.decode version t0) :=
  (TameStep.field tame_int32 : TameStep _) t0
theorem OffsetDeleteRequestPartition47.calm (version : Int16) (t0 : OffsetDeleteRequestPartition47) :
    Calm (OffsetDeleteRequestPartition47.decode version t0) (fun _ => True) :=
  (CalmStep.field tame_int32 calm_int32 : CalmStep _).2 t0
theorem OffsetDeleteRequestPartition47.canon (version : Int16) (t : OffsetDeleteRequestPartition47) (_h : t.Canon version) :
    t.seen version {} = t :=
  OffsetDeleteRequestPartition47.ext rfl
theorem OffsetDeleteRequestPartition47.again (version : Int16) (t t0 : OffsetDeleteRequestPartition47) :
    OffsetDeleteRequestPartition47.wire version (t.seen version t0) = OffsetDeleteRequestPartition47.wire version t :=
  rfl
theorem OffsetDeleteRequestPartition47.lawful : Lawful OffsetDeleteRequestPartition47.type OffsetDeleteRequestPartition47.layout :=
  ⟨OffsetDeleteRequestPartition47.emits, OffsetDeleteRequestPartition47.sized, OffsetDeleteRequestPartition47.reads, OffsetDeleteRequestPartition47.tame, OffsetDeleteRequestPartition47.calm, OffsetDeleteRequestPartition47.canon, OffsetDeleteRequestPartition47.again⟩

theorem OffsetDeleteRequestTopic47.emits (version : Int16) (t : OffsetDeleteRequestTopic47) :
    Emits (OffsetDeleteRequestTopic47.encode version t) (OffsetDeleteRequestTopic47.wire version t) :=
  (emits_string t.Name)
    |>.andThen (emits_structs (OffsetDeleteRequestPartition47.emits version) t.Partitions)
theorem OffsetDeleteRequestTopic47.sized (version : Int16) (t : OffsetDeleteRequestTopic47) :
    Sized (OffsetDeleteRequestTopic47.size version t) (OffsetDeleteRequestTopic47.wire version t) :=
  Grows.sized ((Grows.add (sized_string t.Name))
    |>.andThen (Grows.structs (OffsetDeleteRequestPartition47.sized version) t.Partitions))
theorem OffsetDeleteRequestTopic47.reads (version : Int16) (t : OffsetDeleteRequestTopic47) (h : t.Fits version) (t0 : OffsetDeleteRequestTopic47) :
    Reads (OffsetDeleteRequestTopic47.decode version t0) (OffsetDeleteRequestTopic47.wire version t) (t.seen version t0) :=
  ((Step.field (set := fun (t : OffsetDeleteRequestTopic47) x => { t with Name := x }) (reads_string h.Name))
    |>.andThen (Step.structs (get := fun (t : OffsetDeleteRequestTopic47) => t.Partitions) (set := fun (t : OffsetDeleteRequestTopic47) x => { t with Partitions := x }) (fun x hx => OffsetDeleteRequestPartition47.reads version x hx {}) h.Partitions) : Step _ _ _) t0
theorem OffsetDeleteRequestTopic47.tame (version : Int16) (t0 : OffsetDeleteRequestTopic47) : Tame (OffsetDeleteRequestTopic47.decode version t0) :=
  ((TameStep.field tame_string)
    |>.andThen (TameStep.structs (OffsetDeleteRequestPartition47.tame version {})) : TameStep _) t0
theorem OffsetDeleteRequestTopic47.calm (version : Int16) (t0 : OffsetDeleteRequestTopic47) :
    Calm (OffsetDeleteRequestTopic47.decode version t0) (fun _ => True) :=
  ((CalmStep.field tame_string calm_string)
    |>.andThen (CalmStep.structs (OffsetDeleteRequestPartition47.tame version {}) (OffsetDeleteRequestPartition47.calm version {})) : CalmStep _).2 t0
theorem OffsetDeleteRequestTopic47.canon (version : Int16) (t : OffsetDeleteRequestTopic47) (h : t.Canon version) :
    t.seen version {} = t :=
  OffsetDeleteRequestTopic47.ext rfl (canon_structs (OffsetDeleteRequestPartition47.canon version) h.Partitions)
theorem OffsetDeleteRequestTopic47.again (version : Int16) (t t0 : OffsetDeleteRequestTopic47) :
    OffsetDeleteRequestTopic47.wire version (t.seen version t0) = OffsetDeleteRequestTopic47.wire version t :=
  app_congr (rfl) (again_structs (fun x => OffsetDeleteRequestPartition47.again version x {}) t.Partitions)
theorem OffsetDeleteRequestTopic47.lawful : Lawful OffsetDeleteRequestTopic47.type OffsetDeleteRequestTopic47.layout :=
  ⟨OffsetDeleteRequestTopic47.emits, OffsetDeleteRequestTopic47.sized, OffsetDeleteRequestTopic47.reads, OffsetDeleteRequestTopic47.tame, OffsetDeleteRequestTopic47.calm, OffsetDeleteRequestTopic47.canon, OffsetDeleteRequestTopic47.again⟩

theorem OffsetDeleteRequest.emits (version : Int16) (t : OffsetDeleteRequest) :
    Emits (OffsetDeleteRequest.encode version t) (OffsetDeleteRequest.wire version t) :=
  (emits_string t.GroupId)
    |>.andThen (emits_structs (OffsetDeleteRequestTopic47.emits version) t.Topics)
theorem OffsetDeleteRequest.sized (version : Int16) (t : OffsetDeleteRequest) :
    Sized (OffsetDeleteRequest.size version t) (OffsetDeleteRequest.wire version t) :=
  Grows.sized ((Grows.add (sized_string t.GroupId))
    |>.andThen (Grows.structs (OffsetDeleteRequestTopic47.sized version) t.Topics))
theorem OffsetDeleteRequest.reads (version : Int16) (t : OffsetDeleteRequest) (h : t.Fits version) (t0 : OffsetDeleteRequest) :
    Reads (OffsetDeleteRequest.decode version t0) (OffsetDeleteRequest.wire version t) (t.seen version t0) :=
  ((Step.field (set := fun (t : OffsetDeleteRequest) x => { t with GroupId := x }) (reads_string h.GroupId))
    |>.andThen (Step.structs (get := fun (t : OffsetDeleteRequest) => t.Topics) (set := fun (t : OffsetDeleteRequest) x => { t with Topics := x }) (fun x hx => OffsetDeleteRequestTopic47.reads version x hx {}) h.Topics) : Step _ _ _) t0
theorem OffsetDeleteRequest.tame (version : Int16) (t0 : OffsetDeleteRequest) : Tame (OffsetDeleteRequest.decode version t0) :=
  ((TameStep.field tame_string)
    |>.andThen (TameStep.structs (OffsetDeleteRequestTopic47.tame version {})) : TameStep _) t0
theorem OffsetDeleteRequest.calm (version : Int16) (t0 : OffsetDeleteRequest) :
    Calm (OffsetDeleteRequest.decode version t0) (fun _ => True) :=
  ((CalmStep.field tame_string calm_string)
    |>.andThen (CalmStep.structs (OffsetDeleteRequestTopic47.tame version {}) (OffsetDeleteRequestTopic47.calm version {})) : CalmStep _).2 t0
theorem OffsetDeleteRequest.canon (version : Int16) (t : OffsetDeleteRequest) (h : t.Canon version) :
    t.seen version {} = t :=
  OffsetDeleteRequest.ext rfl (canon_structs (OffsetDeleteRequestTopic47.canon version) h.Topics)
theorem OffsetDeleteRequest.again (version : Int16) (t t0 : OffsetDeleteRequest) :
    OffsetDeleteRequest.wire version (t.seen version t0) = OffsetDeleteRequest.wire version t :=
  app_congr (rfl) (again_structs (fun x => OffsetDeleteRequestTopic47.again version x {}) t.Topics)
theorem OffsetDeleteRequest.lawful : Lawful OffsetDeleteRequest.type OffsetDeleteRequest.layout :=
  ⟨OffsetDeleteRequest.emits, OffsetDeleteRequest.sized, OffsetDeleteRequest.reads, OffsetDeleteRequest.tame, OffsetDeleteRequest.calm, OffsetDeleteRequest.canon, OffsetDeleteRequest.again⟩

theorem OffsetDeleteResponsePartition47.emits (version : Int16) (t : OffsetDeleteResponsePartition47) :
    Emits (OffsetDeleteResponsePartition47.encode version t) (OffsetDeleteResponsePartition47.wire version t) :=
  (emits_int32 t.PartitionIndex)
    |>.andThen (emits_int16 t.ErrorCode)
theorem OffsetDeleteResponsePartition47.sized (version : Int16) (t : OffsetDeleteResponsePartition47) :
    Sized (OffsetDeleteResponsePartition47.size version t) (OffsetDeleteResponsePartition47.wire version t) :=
  Grows.sized ((Grows.add (sized_int32 t.PartitionIndex))
    |>.andThen (Grows.add (sized_int16 t.ErrorCode)))
theorem OffsetDeleteResponsePartition47.reads (version : Int16) (t : OffsetDeleteResponsePartition47) (_h : t.Fits version) (t0 : OffsetDeleteResponsePartition47) :
    Reads (OffsetDeleteResponsePartition47.decode version t0) (OffsetDeleteResponsePartition47.wire version t) (t.seen version t0) :=
  ((Step.field (set := fun (t : OffsetDeleteResponsePartition47) x => { t with PartitionIndex := x }) (reads_int32 t.PartitionIndex))
    |>.andThen (Step.field (set := fun (t : OffsetDeleteResponsePartition47) x => { t with ErrorCode := x }) (reads_int16 t.ErrorCode)) : Step _ _ _) t0
theorem OffsetDeleteResponsePartition47.tame (version : Int16) (t0 : OffsetDeleteResponsePartition47) : Tame (OffsetDeleteResponsePartition47.decode version t0) :=
  ((TameStep.field tame_int32)
    |>.andThen (TameStep.field tame_int16) : TameStep _) t0
theorem OffsetDeleteResponsePartition47.calm (version : Int16) (t0 : OffsetDeleteResponsePartition47) :
    Calm (OffsetDeleteResponsePartition47.decode version t0) (fun _ => True) :=
  ((CalmStep.field tame_int32 calm_int32)
    |>.andThen (CalmStep.field tame_int16 calm_int16) : CalmStep _).2 t0
theorem OffsetDeleteResponsePartition47.canon (version : Int16) (t : OffsetDeleteResponsePartition47) (_h : t.Canon version) :
    t.seen version {} = t :=
  OffsetDeleteResponsePartition47.ext rfl rfl
theorem OffsetDeleteResponsePartition47.again (version : Int16) (t t0 : OffsetDeleteResponsePartition47) :
    OffsetDeleteResponsePartition47.wire version (t.seen version t0) = OffsetDeleteResponsePartition47.wire version t :=
  app_congr (rfl) (rfl)
theorem OffsetDeleteResponsePartition47.lawful : Lawful OffsetDeleteResponsePartition47.type OffsetDeleteResponsePartition47.layout :=
  ⟨OffsetDeleteResponsePartition47.emits, OffsetDeleteResponsePartition47.sized, OffsetDeleteResponsePartition47.reads, OffsetDeleteResponsePartition47.tame, OffsetDeleteResponsePartition47.calm, OffsetDeleteResponsePartition47.canon, OffsetDeleteResponsePartition47.again⟩

theorem OffsetDeleteResponseTopic47.emits (version : Int16) (t : OffsetDeleteResponseTopic47) :
    Emits (OffsetDeleteResponseTopic47.encode version t) (OffsetDeleteResponseTopic47.wire version t) :=
  (emits_string t.Name)
    |>.andThen (emits_structs (OffsetDeleteResponsePartition47.emits version) t.Partitions)
theorem OffsetDeleteResponseTopic47.sized (version : Int16) (t : OffsetDeleteResponseTopic47) :
    Sized (OffsetDeleteResponseTopic47.size version t) (OffsetDeleteResponseTopic47.wire version t) :=
  Grows.sized ((Grows.add (sized_string t.Name))
    |>.andThen (Grows.structs (OffsetDeleteResponsePartition47.sized version) t.Partitions))
theorem OffsetDeleteResponseTopic47.reads (version : Int16) (t : OffsetDeleteResponseTopic47) (h : t.Fits version) (t0 : OffsetDeleteResponseTopic47) :
    Reads (OffsetDeleteResponseTopic47.decode version t0) (OffsetDeleteResponseTopic47.wire version t) (t.seen version t0) :=
  ((Step.field (set := fun (t : OffsetDeleteResponseTopic47) x => { t with Name := x }) (reads_string h.Name))
    |>.andThen (Step.structs (get := fun (t : OffsetDeleteResponseTopic47) => t.Partitions) (set := fun (t : OffsetDeleteResponseTopic47) x => { t with Partitions := x }) (fun x hx => OffsetDeleteResponsePartition47.reads version x hx {}) h.Partitions) : Step _ _ _) t0
theorem OffsetDeleteResponseTopic47.tame (version : Int16) (t0 : OffsetDeleteResponseTopic47) : Tame (OffsetDeleteResponseTopic47.decode version t0) :=
  ((TameStep.field tame_string)
    |>.andThen (TameStep.structs (OffsetDeleteResponsePartition47.tame version {})) : TameStep _) t0
theorem OffsetDeleteResponseTopic47.calm (version : Int16) (t0 : OffsetDeleteResponseTopic47) :
    Calm (OffsetDeleteResponseTopic47.decode version t0) (fun _ => True) :=
  ((CalmStep.field tame_string calm_string)
    |>.andThen (CalmStep.structs (OffsetDeleteResponsePartition47.tame version {}) (OffsetDeleteResponsePartition47.calm version {})) : CalmStep _).2 t0
theorem OffsetDeleteResponseTopic47.canon (version : Int16) (t : OffsetDeleteResponseTopic47) (h : t.Canon version) :
    t.seen version {} = t :=
  OffsetDeleteResponseTopic47.ext rfl (canon_structs (OffsetDeleteResponsePartition47.canon version) h.Partitions)
theorem OffsetDeleteResponseTopic47.again (version : Int16) (t t0 : OffsetDeleteResponseTopic47) :
    OffsetDeleteResponseTopic47.wire version (t.seen version t0) = OffsetDeleteResponseTopic47.wire version t :=
  app_congr (rfl) (again_structs (fun x => OffsetDeleteResponsePartition47.again version x {}) t.Partitions)
theorem OffsetDeleteResponseTopic47.lawful : Lawful OffsetDeleteResponseTopic47.type OffsetDeleteResponseTopic47.layout :=
  ⟨OffsetDeleteResponseTopic47.emits, OffsetDeleteResponseTopic47.sized, OffsetDeleteResponseTopic47.reads, OffsetDeleteResponseTopic47.tame, OffsetDeleteResponseTopic47.calm, OffsetDeleteResponseTopic47.canon, OffsetDeleteResponseTopic47.again⟩

theorem OffsetDeleteResponse.emits (version : Int16) (t : OffsetDeleteResponse) :
    Emits (OffsetDeleteResponse.encode version t) (OffsetDeleteResponse.wire version t) :=
  (emits_int16 t.ErrorCode)
    |>.andThen (emits_int32 t.ThrottleTimeMs)
    |>.andThen (emits_structs (OffsetDeleteResponseTopic47.emits version) t.Topics)
theorem OffsetDeleteResponse.sized (version : Int16) (t : OffsetDeleteResponse) :
    Sized (OffsetDeleteResponse.size version t) (OffsetDeleteResponse.wire version t) :=
  Grows.sized ((Grows.add (sized_int16 t.ErrorCode))
    |>.andThen (Grows.add (sized_int32 t.ThrottleTimeMs))
    |>.andThen (Grows.structs (OffsetDeleteResponseTopic47.sized version) t.Topics))
theorem OffsetDeleteResponse.reads (version : Int16) (t : OffsetDeleteResponse) (h : t.Fits version) (t0 : OffsetDeleteResponse) :
    Reads (OffsetDeleteResponse.decode version t0) (OffsetDeleteResponse.wire version t) (t.seen version t0) :=
  ((Step.field (set := fun (t : OffsetDeleteResponse) x => { t with ErrorCode := x }) (reads_int16 t.ErrorCode))
    |>.andThen (Step.field (set := fun (t : OffsetDeleteResponse) x => { t with ThrottleTimeMs := x }) (reads_int32 t.ThrottleTimeMs))
    |>.andThen (Step.structs (get := fun (t : OffsetDeleteResponse) => t.Topics) (set := fun (t : OffsetDeleteResponse) x => { t with Topics := x }) (fun x hx => OffsetDeleteResponseTopic47.reads version x hx {}) h.Topics) : Step _ _ _) t0
theorem OffsetDeleteResponse.tame (version : Int16) (t0 : OffsetDeleteResponse) : Tame (OffsetDeleteResponse.decode version t0) :=
  ((TameStep.field tame_int16)
    |>.andThen (TameStep.field tame_int32)
    |>.andThen (TameStep.structs (OffsetDeleteResponseTopic47.tame version {})) : TameStep _) t0
theorem OffsetDeleteResponse.calm (version : Int16) (t0 : OffsetDeleteResponse) :
    Calm (OffsetDeleteResponse.decode version t0) (fun _ => True) :=
  ((CalmStep.field tame_int16 calm_int16)
    |>.andThen (CalmStep.field tame_int32 calm_int32)
    |>.andThen (CalmStep.structs (OffsetDeleteResponseTopic47.tame version {}) (OffsetDeleteResponseTopic47.calm version {})) : CalmStep _).2 t0
theorem OffsetDeleteResponse.canon (version : Int16) (t : OffsetDeleteResponse) (h : t.Canon version) :
    t.seen version {} = t :=
  OffsetDeleteResponse.ext rfl rfl (canon_structs (OffsetDeleteResponseTopic47.canon version) h.Topics)
theorem OffsetDeleteResponse.again (version : Int16) (t t0 : OffsetDeleteResponse) :
    OffsetDeleteResponse.wire version (t.seen version t0) = OffsetDeleteResponse.wire version t :=
  app_congr (app_congr (rfl) (rfl)) (again_structs (fun x => OffsetDeleteResponseTopic47.again version x {}) t.Topics)
theorem OffsetDeleteResponse.lawful : Lawful OffsetDeleteResponse.type OffsetDeleteResponse.layout :=
  ⟨OffsetDeleteResponse.emits, OffsetDeleteResponse.sized, OffsetDeleteResponse.reads, OffsetDeleteResponse.tame, OffsetDeleteResponse.calm, OffsetDeleteResponse.canon, OffsetDeleteResponse.again⟩

end Kafka.Msg
