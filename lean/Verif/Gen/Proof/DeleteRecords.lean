import Verif.Message.StepLemmas
import Verif.Gen.Spec.DeleteRecords
/-!
Generated by tools/gen_messages.py: laws of the DeleteRecords messages.
-/
namespace Kafka.Msg

theorem DeleteRecordsPartition21.emits (version : Int16) (t : DeleteRecordsPartition21) :
    Emits (DeleteRecordsPartition21.encode version t) (DeleteRecordsPartition21.wire version t) :=
  (emits_int32 t.PartitionIndex)
    |>.andThen (emits_int64 t.Offset)
theorem DeleteRecordsPartition21.sized (version : Int16) (t : DeleteRecordsPartition21) :
    Sized (DeleteRecordsPartition21.size version t) (DeleteRecordsPartition21.wire version t) :=
  Grows.sized ((Grows.add (sized_int32 t.PartitionIndex))
    |>.andThen (Grows.add (sized_int64 t.Offset)))
theorem DeleteRecordsPartition21.reads (version : Int16) (t : DeleteRecordsPartition21) (_h : t.Fits version) (t0 : DeleteRecordsPartition21) :
    Reads (DeleteRecordsPartition21.decode version t0) (DeleteRecordsPartition21.wire version t) (t.seen version t0) :=
  ((Step.field (set := fun (t : DeleteRecordsPartition21) x => { t with PartitionIndex := x }) (reads_int32 t.PartitionIndex))
    |>.andThen (Step.field (set := fun (t : DeleteRecordsPartition21) x => { t with Offset := x }) (reads_int64 t.Offset)) : Step _ _ _) t0
theorem DeleteRecordsPartition21.tame (version : Int16) (t0 : DeleteRecordsPartition21) : Tame (DeleteRecordsPartition21.decode version t0) :=
  ((TameStep.field tame_int32)
    |>.andThen (TameStep.field tame_int64) : TameStep _) t0
theorem DeleteRecordsPartition21.calm (version : Int16) (t0 : DeleteRecordsPartition21) :
    Calm (DeleteRecordsPartition21.decode version t0) (fun _ => True) :=
  ((CalmStep.field tame_int32 calm_int32)
    |>.andThen (CalmStep.field tame_int64 calm_int64) : CalmStep _).2 t0
theorem DeleteRecordsPartition21.canon (version : Int16) (t : DeleteRecordsPartition21) (_h : t.Canon version) :
    t.seen version {} = t :=
  DeleteRecordsPartition21.ext rfl rfl
theorem DeleteRecordsPartition21.again (version : Int16) (t t0 : DeleteRecordsPartition21) :
    DeleteRecordsPartition21.wire version (t.seen version t0) = DeleteRecordsPartition21.wire version t :=
  app_congr (rfl) (rfl)
theorem DeleteRecordsPartition21.lawful : Lawful DeleteRecordsPartition21.type DeleteRecordsPartition21.layout :=
  ⟨DeleteRecordsPartition21.emits, DeleteRecordsPartition21.sized, DeleteRecordsPartition21.reads, DeleteRecordsPartition21.tame, DeleteRecordsPartition21.calm, DeleteRecordsPartition21.canon, DeleteRecordsPartition21.again⟩

theorem DeleteRecordsTopic21.emits (version : Int16) (t : DeleteRecordsTopic21) :
    Emits (DeleteRecordsTopic21.encode version t) (DeleteRecordsTopic21.wire version t) :=
  (emits_string t.Name)
    |>.andThen (emits_structs (DeleteRecordsPartition21.emits version) t.Partitions)
theorem DeleteRecordsTopic21.sized (version : Int16) (t : DeleteRecordsTopic21) :
    Sized (DeleteRecordsTopic21.size version t) (DeleteRecordsTopic21.wire version t) :=
  Grows.sized ((Grows.add (sized_string t.Name))
    |>.andThen (Grows.structs (DeleteRecordsPartition21.sized version) t.Partitions))
theorem DeleteRecordsTopic21.reads (version : Int16) (t : DeleteRecordsTopic21) (h : t.Fits version) (t0 : DeleteRecordsTopic21) :
    Reads (DeleteRecordsTopic21.decode version t0) (DeleteRecordsTopic21.wire version t) (t.seen version t0) :=
  ((Step.field (set := fun (t : DeleteRecordsTopic21) x => { t with Name := x }) (reads_string h.Name))
    |>.andThen (Step.structs (get := fun (t : DeleteRecordsTopic21) => t.Partitions) (set := fun (t : DeleteRecordsTopic21) x => { t with Partitions := x }) (fun x hx => DeleteRecordsPartition21.reads version x hx {}) h.Partitions) : Step _ _ _) t0
theorem DeleteRecordsTopic21.tame (version : Int16) (t0 : DeleteRecordsTopic21) : Tame (DeleteRecordsTopic21.decode version t0) :=
  ((TameStep.field tame_string)
    |>.andThen (TameStep.structs (DeleteRecordsPartition21.tame version {})) : TameStep _) t0
theorem DeleteRecordsTopic21.calm (version : Int16) (t0 : DeleteRecordsTopic21) :
    Calm (DeleteRecordsTopic21.decode version t0) (fun _ => True) :=
  ((CalmStep.field tame_string calm_string)
    |>.andThen (CalmStep.structs (DeleteRecordsPartition21.tame version {}) (DeleteRecordsPartition21.calm version {})) : CalmStep _).2 t0
theorem DeleteRecordsTopic21.canon (version : Int16) (t : DeleteRecordsTopic21) (h : t.Canon version) :
    t.seen version {} = t :=
  DeleteRecordsTopic21.ext rfl (canon_structs (DeleteRecordsPartition21.canon version) h.Partitions)
theorem DeleteRecordsTopic21.again (version : Int16) (t t0 : DeleteRecordsTopic21) :
    DeleteRecordsTopic21.wire version (t.seen version t0) = DeleteRecordsTopic21.wire version t :=
  app_congr (rfl) (again_structs (fun x => DeleteRecordsPartition21.again version x {}) t.Partitions)
theorem DeleteRecordsTopic21.lawful : Lawful DeleteRecordsTopic21.type DeleteRecordsTopic21.layout :=
  ⟨DeleteRecordsTopic21.emits, DeleteRecordsTopic21.sized, DeleteRecordsTopic21.reads, DeleteRecordsTopic21.tame, DeleteRecordsTopic21.calm, DeleteRecordsTopic21.canon, DeleteRecordsTopic21.again⟩

theorem DeleteRecordsRequest.emits (version : Int16) (t : DeleteRecordsRequest) :
    Emits (DeleteRecordsRequest.encode version t) (DeleteRecordsRequest.wire version t) :=
  (emits_structs (DeleteRecordsTopic21.emits version) t.Topics)
    |>.andThen (emits_int32 t.TimeoutMs)
theorem DeleteRecordsRequest.sized (version : Int16) (t : DeleteRecordsRequest) :
    Sized (DeleteRecordsRequest.size version t) (DeleteRecordsRequest.wire version t) :=
  Grows.sized ((Grows.structs (DeleteRecordsTopic21.sized version) t.Topics)
    |>.andThen (Grows.add (sized_int32 t.TimeoutMs)))
theorem DeleteRecordsRequest.reads (version : Int16) (t : DeleteRecordsRequest) (h : t.Fits version) (t0 : DeleteRecordsRequest) :
    Reads (DeleteRecordsRequest.decode version t0) (DeleteRecordsRequest.wire version t) (t.seen version t0) :=
  ((Step.structs (get := fun (t : DeleteRecordsRequest) => t.Topics) (set := fun (t : DeleteRecordsRequest) x => { t with Topics := x }) (fun x hx => DeleteRecordsTopic21.reads version x hx {}) h.Topics)
    |>.andThen (Step.field (set := fun (t : DeleteRecordsRequest) x => { t with TimeoutMs := x }) (reads_int32 t.TimeoutMs)) : Step _ _ _) t0
theorem DeleteRecordsRequest.tame (version : Int16) (t0 : DeleteRecordsRequest) : Tame (DeleteRecordsRequest.decode version t0) :=
  ((TameStep.structs (DeleteRecordsTopic21.tame version {}))
    |>.andThen (TameStep.field tame_int32) : TameStep _) t0
theorem DeleteRecordsRequest.calm (version : Int16) (t0 : DeleteRecordsRequest) :
    Calm (DeleteRecordsRequest.decode version t0) (fun _ => True) :=
  ((CalmStep.structs (DeleteRecordsTopic21.tame version {}) (DeleteRecordsTopic21.calm version {}))
    |>.andThen (CalmStep.field tame_int32 calm_int32) : CalmStep _).2 t0
theorem DeleteRecordsRequest.canon (version : Int16) (t : DeleteRecordsRequest) (h : t.Canon version) :
    t.seen version {} = t :=
  DeleteRecordsRequest.ext (canon_structs (DeleteRecordsTopic21.canon version) h.Topics) rfl
theorem DeleteRecordsRequest.again (version : Int16) (t t0 : DeleteRecordsRequest) :
    DeleteRecordsRequest.wire version (t.seen version t0) = DeleteRecordsRequest.wire version t :=
  app_congr (again_structs (fun x => DeleteRecordsTopic21.again version x {}) t.Topics) (rfl)
theorem DeleteRecordsRequest.lawful : Lawful DeleteRecordsRequest.type DeleteRecordsRequest.layout :=
  ⟨DeleteRecordsRequest.emits, DeleteRecordsRequest.sized, DeleteRecordsRequest.reads, DeleteRecordsRequest.tame, DeleteRecordsRequest.calm, DeleteRecordsRequest.canon, DeleteRecordsRequest.again⟩

theorem DeleteRecordsPartitionResult21.emits (version : Int16) (t : DeleteRecordsPartitionResult21) :
    Emits (DeleteRecordsPartitionResult21.encode version t) (DeleteRecordsPartitionResult21.wire version t) :=
  (emits_int32 t.PartitionIndex)
    |>.andThen (emits_int64 t.LowWatermark)
    |>.andThen (emits_int16 t.ErrorCode)
theorem DeleteRecordsPartitionResult21.sized (version : Int16) (t : DeleteRecordsPartitionResult21) :
    Sized (DeleteRecordsPartitionResult21.size version t) (DeleteRecordsPartitionResult21.wire version t) :=
  Grows.sized ((Grows.add (sized_int32 t.PartitionIndex))
    |>.andThen (Grows.add (sized_int64 t.LowWatermark))
    |>.andThen (Grows.add (sized_int16 t.ErrorCode)))
theorem DeleteRecordsPartitionResult21.reads (version : Int16) (t : DeleteRecordsPartitionResult21) (_h : t.Fits version) (t0 : DeleteRecordsPartitionResult21) :
    Reads (DeleteRecordsPartitionResult21.decode version t0) (DeleteRecordsPartitionResult21.wire version t) (t.seen version t0) :=
  ((Step.field (set := fun (t : DeleteRecordsPartitionResult21) x => { t with PartitionIndex := x }) (reads_int32 t.PartitionIndex))
    |>.andThen (Step.field (set := fun (t : DeleteRecordsPartitionResult21) x => { t with LowWatermark := x }) (reads_int64 t.LowWatermark))
    |>.andThen (Step.field (set := fun (t : DeleteRecordsPartitionResult21) x => { t with ErrorCode := x }) (reads_int16 t.ErrorCode)) : Step _ _ _) t0
theorem DeleteRecordsPartitionResult21.tame (version : Int16) (t0 : DeleteRecordsPartitionResult21) : Tame (DeleteRecordsPartitionResult21.decode version t0) :=
  ((TameStep.field tame_int32)
    |>.andThen (TameStep.field tame_int64)
    |>.andThen (TameStep.field tame_int16) : TameStep _) t0
theorem DeleteRecordsPartitionResult21.calm (version : Int16) (t0 : DeleteRecordsPartitionResult21) :
    Calm (DeleteRecordsPartitionResult21.decode version t0) (fun _ => True) :=
  ((CalmStep.field tame_int32 calm_int32)
    |>.andThen (CalmStep.field tame_int64 calm_int64)
    |>.andThen (CalmStep.field tame_int16 calm_int16) : CalmStep _).2 t0
theorem DeleteRecordsPartitionResult21.canon (version : Int16) (t : DeleteRecordsPartitionResult21) (_h : t.Canon version) :
    t.seen version {} = t :=
  DeleteRecordsPartitionResult21.ext rfl rfl rfl
theorem DeleteRecordsPartitionResult21.again (version : Int16) (t t0 : DeleteRecordsPartitionResult21) :
    DeleteRecordsPartitionResult21.wire version (t.seen version t0) = DeleteRecordsPartitionResult21.wire version t :=
  app_congr (app_congr (rfl) (rfl)) (rfl)
theorem DeleteRecordsPartitionResult21.lawful : Lawful DeleteRecordsPartitionResult21.type DeleteRecordsPartitionResult21.layout :=
  ⟨DeleteRecordsPartitionResult21.emits, DeleteRecordsPartitionResult21.sized, DeleteRecordsPartitionResult21.reads, DeleteRecordsPartitionResult21.tame, DeleteRecordsPartitionResult21.calm, DeleteRecordsPartitionResult21.canon, DeleteRecordsPartitionResult21.again⟩

theorem DeleteRecordsTopicResult21.emits (version : Int16) (t : DeleteRecordsTopicResult21) :
    Emits (DeleteRecordsTopicResult21.encode version t) (DeleteRecordsTopicResult21.wire version t) :=
  (emits_string t.Name)
    |>.andThen (emits_structs (DeleteRecordsPartitionResult21.emits version) t.Partitions)
theorem DeleteRecordsTopicResult21.sized (version : Int16) (t : DeleteRecordsTopicResult21) :
    Sized (DeleteRecordsTopicResult21.size version t) (DeleteRecordsTopicResult21.wire version t) :=
  Grows.sized ((Grows.add (sized_string t.Name))
    |>.andThen (Grows.structs (DeleteRecordsPartitionResult21.sized version) t.Partitions))
theorem DeleteRecordsTopicResult21.reads (version : Int16) (t : DeleteRecordsTopicResult21) (h : t.Fits version) (t0 : DeleteRecordsTopicResult21) :
    Reads (DeleteRecordsTopicResult21.decode version t0) (DeleteRecordsTopicResult21.wire version t) (t.seen version t0) :=
  ((Step.field (set := fun (t : DeleteRecordsTopicResult21) x => { t with Name := x }) (reads_string h.Name))
    |>.andThen (Step.structs (get := fun (t : DeleteRecordsTopicResult21) => t.Partitions) (set := fun (t : DeleteRecordsTopicResult21) x => { t with Partitions := x }) (fun x hx => DeleteRecordsPartitionResult21.reads version x hx {}) h.Partitions) : Step _ _ _) t0
theorem DeleteRecordsTopicResult21.tame (version : Int16) (t0 : DeleteRecordsTopicResult21) : Tame (DeleteRecordsTopicResult21.decode version t0) :=
  ((TameStep.field tame_string)
    |>.andThen (TameStep.structs (DeleteRecordsPartitionResult21.tame version {})) : TameStep _) t0
theorem DeleteRecordsTopicResult21.calm (version : Int16) (t0 : DeleteRecordsTopicResult21) :
    Calm (DeleteRecordsTopicResult21.decode version t0) (fun _ => True) :=
  ((CalmStep.field tame_string calm_string)
    |>.andThen (CalmStep.structs (DeleteRecordsPartitionResult21.tame version {}) (DeleteRecordsPartitionResult21.calm version {})) : CalmStep _).2 t0
theorem DeleteRecordsTopicResult21.canon (version : Int16) (t : DeleteRecordsTopicResult21) (h : t.Canon version) :
    t.seen version {} = t :=
  DeleteRecordsTopicResult21.ext rfl (canon_structs (DeleteRecordsPartitionResult21.canon version) h.Partitions)
theorem DeleteRecordsTopicResult21.again (version : Int16) (t t0 : DeleteRecordsTopicResult21) :
    DeleteRecordsTopicResult21.wire version (t.seen version t0) = DeleteRecordsTopicResult21.wire version t :=
  app_congr (rfl) (again_structs (fun x => DeleteRecordsPartitionResult21.again version x {}) t.Partitions)
theorem DeleteRecordsTopicResult21.lawful : Lawful DeleteRecordsTopicResult21.type DeleteRecordsTopicResult21.layout :=
  ⟨DeleteRecordsTopicResult21.emits, DeleteRecordsTopicResult21.sized, DeleteRecordsTopicResult21.reads, DeleteRecordsTopicResult21.tame, DeleteRecordsTopicResult21.calm, DeleteRecordsTopicResult21.canon, DeleteRecordsTopicResult21.again⟩

theorem DeleteRecordsResponse.emits (version : Int16) (t : DeleteRecordsResponse) :
    Emits (DeleteRecordsResponse.encode version t) (DeleteRecordsResponse.wire version t) :=
  (emits_int32 t.ThrottleTimeMs)
    |>.andThen (emits_structs (DeleteRecordsTopicResult21.emits version) t.Topics)
theorem DeleteRecordsResponse.sized (version : Int16) (t : DeleteRecordsResponse) :
    Sized (DeleteRecordsResponse.size version t) (DeleteRecordsResponse.wire version t) :=
  Grows.sized ((Grows.add (sized_int32 t.ThrottleTimeMs))
    |>.andThen (Grows.structs (DeleteRecordsTopicResult21.sized version) t.Topics))
theorem DeleteRecordsResponse.reads (version : Int16) (t : DeleteRecordsResponse) (h : t.Fits version) (t0 : DeleteRecordsResponse) :
    Reads (DeleteRecordsResponse.decode version t0) (DeleteRecordsResponse.wire version t) (t.seen version t0) :=
  ((Step.field (set := fun (t : DeleteRecordsResponse) x => { t with ThrottleTimeMs := x }) (reads_int32 t.ThrottleTimeMs))
    |>.andThen (Step.structs (get := fun (t : DeleteRecordsResponse) => t.Topics) (set := fun (t : DeleteRecordsResponse) x => { t with Topics := x }) (fun x hx => DeleteRecordsTopicResult21.reads version x hx {}) h.Topics) : Step _ _ _) t0
theorem DeleteRecordsResponse.tame (version : Int16) (t0 : DeleteRecordsResponse) : Tame (DeleteRecordsResponse.decode version t0) :=
  ((TameStep.field tame_int32)
    |>.andThen (TameStep.structs (DeleteRecordsTopicResult21.tame version {})) : TameStep _) t0
theorem DeleteRecordsResponse.calm (version : Int16) (t0 : DeleteRecordsResponse) :
    Calm (DeleteRecordsResponse.decode version t0) (fun _ => True) :=
  ((CalmStep.field tame_int32 calm_int32)
    |>.andThen (CalmStep.structs (DeleteRecordsTopicResult21.tame version {}) (DeleteRecordsTopicResult21.calm version {})) : CalmStep _).2 t0
theorem DeleteRecordsResponse.canon (version : Int16) (t : DeleteRecordsResponse) (h : t.Canon version) :
    t.seen version {} = t :=
  DeleteRecordsResponse.ext rfl (canon_structs (DeleteRecordsTopicResult21.canon version) h.Topics)
theorem DeleteRecordsResponse.again (version : Int16) (t t0 : DeleteRecordsResponse) :
    DeleteRecordsResponse.wire version (t.seen version t0) = DeleteRecordsResponse.wire version t :=
  app_congr (rfl) (again_structs (fun x => DeleteRecordsTopicResult21.again version x {}) t.Topics)
theorem DeleteRecordsResponse.lawful : Lawful DeleteRecordsResponse.type DeleteRecordsResponse.layout :=
  ⟨DeleteRecordsResponse.emits, DeleteRecordsResponse.sized, DeleteRecordsResponse.reads, DeleteRecordsResponse.tame, DeleteRecordsResponse.calm, DeleteRecordsResponse.canon, DeleteRecordsResponse.again⟩

end Kafka.Msg
