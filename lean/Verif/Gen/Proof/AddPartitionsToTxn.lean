import Verif.Message.StepLemmas
import Verif.Gen.Spec.AddPartitionsToTxn
/-!
Generated by tools/gen_messages.py: laws of the AddPartitionsToTxn messages.
-/
namespace Kafka.Msg

theorem AddPartitionsToTxnTopic24.emits (version : Int16) (t : AddPartitionsToTxnTopic24) :
    Emits (AddPartitionsToTxnTopic24.encode version t) (AddPartitionsToTxnTopic24.wire version t) :=
  (emits_string t.Name)
    |>.andThen (emits_int32Array t.Partitions)
theorem AddPartitionsToTxnTopic24.sized (version : Int16) (t : AddPartitionsToTxnTopic24) :
    Sized (AddPartitionsToTxnTopic24.size version t) (AddPartitionsToTxnTopic24.wire version t) :=
  Grows.sized ((Grows.add (sized_string t.Name))
    |>.andThen (Grows.add (sized_int32Array t.Partitions)))
theorem AddPartitionsToTxnTopic24.reads (version : Int16) (t : AddPartitionsToTxnTopic24) (h : t.Fits version) (t0 : AddPartitionsToTxnTopic24) :
    Reads (AddPartitionsToTxnTopic24.decode version t0) (AddPartitionsToTxnTopic24.wire version t) (t.seen version t0) :=
  ((Step.field (set := fun (t : AddPartitionsToTxnTopic24) x => { t with Name := x }) (reads_string h.Name))
    |>.andThen (Step.field (set := fun (t : AddPartitionsToTxnTopic24) x => { t with Partitions := x }) (reads_int32Array h.Partitions)) : Step _ _ _) t0
theorem AddPartitionsToTxnTopic24.tame (version : Int16) (t0 : AddPartitionsToTxnTopic24) : Tame (AddPartitionsToTxnTopic24.decode version t0) :=
  ((TameStep.field tame_string)
    |>.andThen (TameStep.field tame_int32Array) : TameStep _) t0
theorem AddPartitionsToTxnTopic24.calm (version : Int16) (t0 : AddPartitionsToTxnTopic24) :
    Calm (AddPartitionsToTxnTopic24.decode version t0) (fun _ => True) :=
  ((CalmStep.field tame_string calm_string)
    |>.andThen (CalmStep.field tame_int32Array calm_int32Array) : CalmStep _).2 t0
theorem AddPartitionsToTxnTopic24.canon (version : Int16) (t : AddPartitionsToTxnTopic24) (_h : t.Canon version) :
    t.seen version {} = t :=
  AddPartitionsToTxnTopic24.ext rfl rfl
theorem AddPartitionsToTxnTopic24.again (version : Int16) (t t0 : AddPartitionsToTxnTopic24) :
    AddPartitionsToTxnTopic24.wire version (t.seen version t0) = AddPartitionsToTxnTopic24.wire version t :=
  app_congr (rfl) (rfl)
theorem AddPartitionsToTxnTopic24.lawful : Lawful AddPartitionsToTxnTopic24.type AddPartitionsToTxnTopic24.layout :=
  ⟨AddPartitionsToTxnTopic24.emits, AddPartitionsToTxnTopic24.sized, AddPartitionsToTxnTopic24.reads, AddPartitionsToTxnTopic24.tame, AddPartitionsToTxnTopic24.calm, AddPartitionsToTxnTopic24.canon, AddPartitionsToTxnTopic24.again⟩

theorem AddPartitionsToTxnRequest.emits (version : Int16) (t : AddPartitionsToTxnRequest) :
    Emits (AddPartitionsToTxnRequest.encode version t) (AddPartitionsToTxnRequest.wire version t) :=
  (emits_string t.TransactionalId)
    |>.andThen (emits_int64 t.ProducerId)
    |>.andThen (emits_int16 t.ProducerEpoch)
    |>.andThen (emits_structs (AddPartitionsToTxnTopic24.emits version) t.Topics)
theorem AddPartitionsToTxnRequest.sized (version : Int16) (t : AddPartitionsToTxnRequest) :
    Sized (AddPartitionsToTxnRequest.size version t) (AddPartitionsToTxnRequest.wire version t) :=
  Grows.sized ((Grows.add (sized_string t.TransactionalId))
    |>.andThen (Grows.add (sized_int64 t.ProducerId))
    |>.andThen (Grows.add (sized_int16 t.ProducerEpoch))
    |>.andThen (Grows.structs (AddPartitionsToTxnTopic24.sized version) t.Topics))
theorem AddPartitionsToTxnRequest.reads (version : Int16) (t : AddPartitionsToTxnRequest) (h : t.Fits version) (t0 : AddPartitionsToTxnRequest) :
    Reads (AddPartitionsToTxnRequest.decode version t0) (AddPartitionsToTxnRequest.wire version t) (t.seen version t0) :=
  ((Step.field (set := fun (t : AddPartitionsToTxnRequest) x => { t with TransactionalId := x }) (reads_string h.TransactionalId))
    |>.andThen (Step.field (set := fun (t : AddPartitionsToTxnRequest) x => { t with ProducerId := x }) (reads_int64 t.ProducerId))
    |>.andThen (Step.field (set := fun (t : AddPartitionsToTxnRequest) x => { t with ProducerEpoch := x }) (reads_int16 t.ProducerEpoch))
    |>.andThen (Step.structs (get := fun (t : AddPartitionsToTxnRequest) => t.Topics) (set := fun (t : AddPartitionsToTxnRequest) x => { t with Topics := x }) (fun x hx => AddPartitionsToTxnTopic24.reads version x hx {}) h.Topics) : Step _ _ _) t0
theorem AddPartitionsToTxnRequest.tame (version : Int16) (t0 : AddPartitionsToTxnRequest) : Tame (AddPartitionsToTxnRequest.decode version t0) :=
  ((TameStep.field tame_string)
    |>.andThen (TameStep.field tame_int64)
    |>.andThen (TameStep.field tame_int16)
    |>.andThen (TameStep.structs (AddPartitionsToTxnTopic24.tame version {})) : TameStep _) t0
theorem AddPartitionsToTxnRequest.calm (version : Int16) (t0 : AddPartitionsToTxnRequest) :
    Calm (AddPartitionsToTxnRequest.decode version t0) (fun _ => True) :=
  ((CalmStep.field tame_string calm_string)
    |>.andThen (CalmStep.field tame_int64 calm_int64)
    |>.andThen (CalmStep.field tame_int16 calm_int16)
    |>.andThen (CalmStep.structs (AddPartitionsToTxnTopic24.tame version {}) (AddPartitionsToTxnTopic24.calm version {})) : CalmStep _).2 t0
theorem AddPartitionsToTxnRequest.canon (version : Int16) (t : AddPartitionsToTxnRequest) (h : t.Canon version) :
    t.seen version {} = t :=
  AddPartitionsToTxnRequest.ext rfl rfl rfl (canon_structs (AddPartitionsToTxnTopic24.canon version) h.Topics)
theorem AddPartitionsToTxnRequest.again (version : Int16) (t t0 : AddPartitionsToTxnRequest) :
    AddPartitionsToTxnRequest.wire version (t.seen version t0) = AddPartitionsToTxnRequest.wire version t :=
  app_congr (app_congr (app_congr (rfl) (rfl)) (rfl)) (again_structs (fun x => AddPartitionsToTxnTopic24.again version x {}) t.Topics)
theorem AddPartitionsToTxnRequest.lawful : Lawful AddPartitionsToTxnRequest.type AddPartitionsToTxnRequest.layout :=
  ⟨AddPartitionsToTxnRequest.emits, AddPartitionsToTxnRequest.sized, AddPartitionsToTxnRequest.reads, AddPartitionsToTxnRequest.tame, AddPartitionsToTxnRequest.calm, AddPartitionsToTxnRequest.canon, AddPartitionsToTxnRequest.again⟩

theorem AddPartitionsToTxnPartitionResult24.emits (version : Int16) (t : AddPartitionsToTxnPartitionResult24) :
    Emits (AddPartitionsToTxnPartitionResult24.encode version t) (AddPartitionsToTxnPartitionResult24.wire version t) :=
  (emits_int32 t.PartitionIndex)
    |>.andThen (emits_int16 t.ErrorCode)
theorem AddPartitionsToTxnPartitionResult24.sized (version : Int16) (t : AddPartitionsToTxnPartitionResult24) :
    Sized (AddPartitionsToTxnPartitionResult24.size version t) (AddPartitionsToTxnPartitionResult24.wire version t) :=
  Grows.sized ((Grows.add (sized_int32 t.PartitionIndex))
    |>.andThen (Grows.add (sized_int16 t.ErrorCode)))
theorem AddPartitionsToTxnPartitionResult24.reads (version : Int16) (t : AddPartitionsToTxnPartitionResult24) (_h : t.Fits version) (t0 : AddPartitionsToTxnPartitionResult24) :
    Reads (AddPartitionsToTxnPartitionResult24.decode version t0) (AddPartitionsToTxnPartitionResult24.wire version t) (t.seen version t0) :=
  ((Step.field (set := fun (t : AddPartitionsToTxnPartitionResult24) x => { t with PartitionIndex := x }) (reads_int32 t.PartitionIndex))
    |>.andThen (Step.field (set := fun (t : AddPartitionsToTxnPartitionResult24) x => { t with ErrorCode := x }) (reads_int16 t.ErrorCode)) : Step _ _ _) t0
theorem AddPartitionsToTxnPartitionResult24.tame (version : Int16) (t0 : AddPartitionsToTxnPartitionResult24) : Tame (AddPartitionsToTxnPartitionResult24.decode version t0) :=
  ((TameStep.field tame_int32)
    |>.andThen (TameStep.field tame_int16) : TameStep _) t0
theorem AddPartitionsToTxnPartitionResult24.calm (version : Int16) (t0 : AddPartitionsToTxnPartitionResult24) :
    Calm (AddPartitionsToTxnPartitionResult24.decode version t0) (fun _ => True) :=
  ((CalmStep.field tame_int32 calm_int32)
    |>.andThen (CalmStep.field tame_int16 calm_int16) : CalmStep _).2 t0
theorem AddPartitionsToTxnPartitionResult24.canon (version : Int16) (t : AddPartitionsToTxnPartitionResult24) (_h : t.Canon version) :
    t.seen version {} = t :=
  AddPartitionsToTxnPartitionResult24.ext rfl rfl
theorem AddPartitionsToTxnPartitionResult24.again (version : Int16) (t t0 : AddPartitionsToTxnPartitionResult24) :
    AddPartitionsToTxnPartitionResult24.wire version (t.seen version t0) = AddPartitionsToTxnPartitionResult24.wire version t :=
  app_congr (rfl) (rfl)
theorem AddPartitionsToTxnPartitionResult24.lawful : Lawful AddPartitionsToTxnPartitionResult24.type AddPartitionsToTxnPartitionResult24.layout :=
  ⟨AddPartitionsToTxnPartitionResult24.emits, AddPartitionsToTxnPartitionResult24.sized, AddPartitionsToTxnPartitionResult24.reads, AddPartitionsToTxnPartitionResult24.tame, AddPartitionsToTxnPartitionResult24.calm, AddPartitionsToTxnPartitionResult24.canon, AddPartitionsToTxnPartitionResult24.again⟩

theorem AddPartitionsToTxnTopicResult24.emits (version : Int16) (t : AddPartitionsToTxnTopicResult24) :
    Emits (AddPartitionsToTxnTopicResult24.encode version t) (AddPartitionsToTxnTopicResult24.wire version t) :=
  (emits_string t.Name)
    |>.andThen (emits_structs (AddPartitionsToTxnPartitionResult24.emits version) t.Results)
theorem AddPartitionsToTxnTopicResult24.sized (version : Int16) (t : AddPartitionsToTxnTopicResult24) :
    Sized (AddPartitionsToTxnTopicResult24.size version t) (AddPartitionsToTxnTopicResult24.wire version t) :=
  Grows.sized ((Grows.add (sized_string t.Name))
    |>.andThen (Grows.structs (AddPartitionsToTxnPartitionResult24.sized version) t.Results))
theorem AddPartitionsToTxnTopicResult24.reads (version : Int16) (t : AddPartitionsToTxnTopicResult24) (h : t.Fits version) (t0 : AddPartitionsToTxnTopicResult24) :
    Reads (AddPartitionsToTxnTopicResult24.decode version t0) (AddPartitionsToTxnTopicResult24.wire version t) (t.seen version t0) :=
  ((Step.field (set := fun (t : AddPartitionsToTxnTopicResult24) x => { t with Name := x }) (reads_string h.Name))
    |>.andThen (Step.structs (get := fun (t : AddPartitionsToTxnTopicResult24) => t.Results) (set := fun (t : AddPartitionsToTxnTopicResult24) x => { t with Results := x }) (fun x hx => AddPartitionsToTxnPartitionResult24.reads version x hx {}) h.Results) : Step _ _ _) t0
theorem AddPartitionsToTxnTopicResult24.tame (version : Int16) (t0 : AddPartitionsToTxnTopicResult24) : Tame (AddPartitionsToTxnTopicResult24.decode version t0) :=
  ((TameStep.field tame_string)
    |>.andThen (TameStep.structs (AddPartitionsToTxnPartitionResult24.tame version {})) : TameStep _) t0
theorem AddPartitionsToTxnTopicResult24.calm (version : Int16) (t0 : AddPartitionsToTxnTopicResult24) :
    Calm (AddPartitionsToTxnTopicResult24.decode version t0) (fun _ => True) :=
  ((CalmStep.field tame_string calm_string)
    |>.andThen (CalmStep.structs (AddPartitionsToTxnPartitionResult24.tame version {}) (AddPartitionsToTxnPartitionResult24.calm version {})) : CalmStep _).2 t0
theorem AddPartitionsToTxnTopicResult24.canon (version : Int16) (t : AddPartitionsToTxnTopicResult24) (h : t.Canon version) :
    t.seen version {} = t :=
  AddPartitionsToTxnTopicResult24.ext rfl (canon_structs (AddPartitionsToTxnPartitionResult24.canon version) h.Results)
theorem AddPartitionsToTxnTopicResult24.again (version : Int16) (t t0 : AddPartitionsToTxnTopicResult24) :
    AddPartitionsToTxnTopicResult24.wire version (t.seen version t0) = AddPartitionsToTxnTopicResult24.wire version t :=
  app_congr (rfl) (again_structs (fun x => AddPartitionsToTxnPartitionResult24.again version x {}) t.Results)
theorem AddPartitionsToTxnTopicResult24.lawful : Lawful AddPartitionsToTxnTopicResult24.type AddPartitionsToTxnTopicResult24.layout :=
  ⟨AddPartitionsToTxnTopicResult24.emits, AddPartitionsToTxnTopicResult24.sized, AddPartitionsToTxnTopicResult24.reads, AddPartitionsToTxnTopicResult24.tame, AddPartitionsToTxnTopicResult24.calm, AddPartitionsToTxnTopicResult24.canon, AddPartitionsToTxnTopicResult24.again⟩

theorem AddPartitionsToTxnResponse.emits (version : Int16) (t : AddPartitionsToTxnResponse) :
    Emits (AddPartitionsToTxnResponse.encode version t) (AddPartitionsToTxnResponse.wire version t) :=
  (emits_int32 t.ThrottleTimeMs)
    |>.andThen (emits_structs (AddPartitionsToTxnTopicResult24.emits version) t.Results)
theorem AddPartitionsToTxnResponse.sized (version : Int16) (t : AddPartitionsToTxnResponse) :
    Sized (AddPartitionsToTxnResponse.size version t) (AddPartitionsToTxnResponse.wire version t) :=
  Grows.sized ((Grows.add (sized_int32 t.ThrottleTimeMs))
    |>.andThen (Grows.structs (AddPartitionsToTxnTopicResult24.sized version) t.Results))
theorem AddPartitionsToTxnResponse.reads (version : Int16) (t : AddPartitionsToTxnResponse) (h : t.Fits version) (t0 : AddPartitionsToTxnResponse) :
    Reads (AddPartitionsToTxnResponse.decode version t0) (AddPartitionsToTxnResponse.wire version t) (t.seen version t0) :=
  ((Step.field (set := fun (t : AddPartitionsToTxnResponse) x => { t with ThrottleTimeMs := x }) (reads_int32 t.ThrottleTimeMs))
    |>.andThen (Step.structs (get := fun (t : AddPartitionsToTxnResponse) => t.Results) (set := fun (t : AddPartitionsToTxnResponse) x => { t with Results := x }) (fun x hx => AddPartitionsToTxnTopicResult24.reads version x hx {}) h.Results) : Step _ _ _) t0
theorem AddPartitionsToTxnResponse.tame (version : Int16) (t0 : AddPartitionsToTxnResponse) : Tame (AddPartitionsToTxnResponse.decode version t0) :=
  ((TameStep.field tame_int32)
    |>.andThen (TameStep.structs (AddPartitionsToTxnTopicResult24.tame version {})) : TameStep _) t0
theorem AddPartitionsToTxnResponse.calm (version : Int16) (t0 : AddPartitionsToTxnResponse) :
    Calm (AddPartitionsToTxnResponse.decode version t0) (fun _ => True) :=
  ((CalmStep.field tame_int32 calm_int32)
    |>.andThen (CalmStep.structs (AddPartitionsToTxnTopicResult24.tame version {}) (AddPartitionsToTxnTopicResult24.calm version {})) : CalmStep _).2 t0
theorem AddPartitionsToTxnResponse.canon (version : Int16) (t : AddPartitionsToTxnResponse) (h : t.Canon version) :
    t.seen version {} = t :=
  AddPartitionsToTxnResponse.ext rfl (canon_structs (AddPartitionsToTxnTopicResult24.canon version) h.Results)
theorem AddPartitionsToTxnResponse.again (version : Int16) (t t0 : AddPartitionsToTxnResponse) :
    AddPartitionsToTxnResponse.wire version (t.seen version t0) = AddPartitionsToTxnResponse.wire version t :=
  app_congr (rfl) (again_structs (fun x => AddPartitionsToTxnTopicResult24.again version x {}) t.Results)
theorem AddPartitionsToTxnResponse.lawful : Lawful AddPartitionsToTxnResponse.type AddPartitionsToTxnResponse.layout :=
  ⟨AddPartitionsToTxnResponse.emits, AddPartitionsToTxnResponse.sized, AddPartitionsToTxnResponse.reads, AddPartitionsToTxnResponse.tame, AddPartitionsToTxnResponse.calm, AddPartitionsToTxnResponse.canon, AddPartitionsToTxnResponse.again⟩

end Kafka.Msg
