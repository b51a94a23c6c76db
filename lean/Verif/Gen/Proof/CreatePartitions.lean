import Verif.Message.StepLemmas
import Verif.Gen.Spec.CreatePartitions
/-!
Generated by tools/gen_messages.py: laws of the CreatePartitions messages.
-/
namespace Kafka.Msg

theorem CreatePartitionsAssignment37.emits (version : Int16) (t : CreatePartitionsAssignment37) :
    Emits (CreatePartitionsAssignment37.encode version t) (CreatePartitionsAssignment37.wire version t) :=
  emits_int32Array t.BrokerIds
theorem CreatePartitionsAssignment37.sized (version : Int16) (t : CreatePartitionsAssignment37) :
    Sized (CreatePartitionsAssignment37.size version t) (CreatePartitionsAssignment37.wire version t) :=
  Grows.sized (Grows.add (sized_int32Array t.BrokerIds))
theorem CreatePartitionsAssignment37.reads (version : Int16) (t : CreatePartitionsAssignment37) (h : t.Fits version) (t0 : CreatePartitionsAssignment37) :
    Reads (CreatePartitionsAssignment37.decode version t0) (CreatePartitionsAssignment37.wire version t) (t.seen version t0) :=
  (Step.field (set := fun (t : CreatePartitionsAssignment37) x => { t with BrokerIds := x }) (reads_int32Array h.BrokerIds) : Step _ _ _) t0
theorem CreatePartitionsAssignment37.tame (version : Int16) (t0 : CreatePartitionsAssignment37) : Tame (CreatePartitionsAssignment37.decode version t0) :=
  (TameStep.field tame_int32Array : TameStep _) t0
theorem CreatePartitionsAssignment37.calm (version : Int16) (t0 : CreatePartitionsAssignment37) :
    Calm (CreatePartitionsAssignment37.decode version t0) (fun _ => True) :=
  (CalmStep.field tame_int32Array calm_int32Array : CalmStep _).2 t0
theorem CreatePartitionsAssignment37.canon (version : Int16) (t : CreatePartitionsAssignment37) (_h : t.Canon version) :
    t.seen version {} = t :=
  CreatePartitionsAssignment37.ext rfl
theorem CreatePartitionsAssignment37.again (version : Int16) (t t0 : CreatePartitionsAssignment37) :
    CreatePartitionsAssignment37.wire version (t.seen version t0) = CreatePartitionsAssignment37.wire version t :=
  rfl
theorem CreatePartitionsAssignment37.lawful : Lawful CreatePartitionsAssignment37.type CreatePartitionsAssignment37.layout :=
  ⟨CreatePartitionsAssignment37.emits, CreatePartitionsAssignment37.sized, CreatePartitionsAssignment37.reads, CreatePartitionsAssignment37.tame, CreatePartitionsAssignment37.calm, CreatePartitionsAssignment37.canon, CreatePartitionsAssignment37.again⟩

theorem CreatePartitionsTopic37.emits (version : Int16) (t : CreatePartitionsTopic37) :
    Emits (CreatePartitionsTopic37.encode version t) (CreatePartitionsTopic37.wire version t) :=
  (emits_string t.Name)
    |>.andThen (emits_int32 t.Count)
    |>.andThen (emits_structs (CreatePartitionsAssignment37.emits version) t.Assignments)
theorem CreatePartitionsTopic37.sized (version : Int16) (t : CreatePartitionsTopic37) :
    Sized (CreatePartitionsTopic37.size version t) (CreatePartitionsTopic37.wire version t) :=
  Grows.sized ((Grows.add (sized_string t.Name))
    |>.andThen (Grows.add (sized_int32 t.Count))
    |>.andThen (Grows.structs (CreatePartitionsAssignment37.sized version) t.Assignments))
theorem CreatePartitionsTopic37.reads (version : Int16) (t : CreatePartitionsTopic37) (h : t.Fits version) (t0 : CreatePartitionsTopic37) :
    Reads (CreatePartitionsTopic37.decode version t0) (CreatePartitionsTopic37.wire version t) (t.seen version t0) :=
  ((Step.field (set := fun (t : CreatePartitionsTopic37) x => { t with Name := x }) (reads_string h.Name))
    |>.andThen (Step.field (set := fun (t : CreatePartitionsTopic37) x => { t with Count := x }) (reads_int32 t.Count))
    |>.andThen (Step.structs (get := fun (t : CreatePartitionsTopic37) => t.Assignments) (set := fun (t : CreatePartitionsTopic37) x => { t with Assignments := x }) (fun x hx => CreatePartitionsAssignment37.reads version x hx {}) h.Assignments) : Step _ _ _) t0
theorem CreatePartitionsTopic37.tame (version : Int16) (t0 : CreatePartitionsTopic37) : Tame (CreatePartitionsTopic37.decode version t0) :=
  ((TameStep.field tame_string)
    |>.andThen (TameStep.field tame_int32)
    |>.andThen (TameStep.structs (CreatePartitionsAssignment37.tame version {})) : TameStep _) t0
theorem CreatePartitionsTopic37.calm (version : Int16) (t0 : CreatePartitionsTopic37) :
    Calm (CreatePartitionsTopic37.decode version t0) (fun _ => True) :=
  ((CalmStep.field tame_string calm_string)
    |>.andThen (CalmStep.field tame_int32 calm_int32)
    |>.andThen (CalmStep.structs (CreatePartitionsAssignment37.tame version {}) (CreatePartitionsAssignment37.calm version {})) : CalmStep _).2 t0
theorem CreatePartitionsTopic37.canon (version : Int16) (t : CreatePartitionsTopic37) (h : t.Canon version) :
    t.seen version {} = t :=
  CreatePartitionsTopic37.ext rfl rfl (canon_structs (CreatePartitionsAssignment37.canon version) h.Assignments)
theorem CreatePartitionsTopic37.again (version : Int16) (t t0 : CreatePartitionsTopic37) :
    CreatePartitionsTopic37.wire version (t.seen version t0) = CreatePartitionsTopic37.wire version t :=
  app_congr (app_congr (rfl) (rfl)) (again_structs (fun x => CreatePartitionsAssignment37.again version x {}) t.Assignments)
theorem CreatePartitionsTopic37.lawful : Lawful CreatePartitionsTopic37.type CreatePartitionsTopic37.layout :=
  ⟨CreatePartitionsTopic37.emits, CreatePartitionsTopic37.sized, CreatePartitionsTopic37.reads, CreatePartitionsTopic37.tame, CreatePartitionsTopic37.calm, CreatePartitionsTopic37.canon, CreatePartitionsTopic37.again⟩

theorem CreatePartitionsRequest.emits (version : Int16) (t : CreatePartitionsRequest) :
    Emits (CreatePartitionsRequest.encode version t) (CreatePartitionsRequest.wire version t) :=
  (emits_structs (CreatePartitionsTopic37.emits version) t.Topics)
    |>.andThen (emits_int32 t.TimeoutMs)
    |>.andThen (emits_bool t.ValidateOnly)
theorem CreatePartitionsRequest.sized (version : Int16) (t : CreatePartitionsRequest) :
    Sized (CreatePartitionsRequest.size version t) (CreatePartitionsRequest.wire version t) :=
  Grows.sized ((Grows.structs (CreatePartitionsTopic37.sized version) t.Topics)
    |>.andThen (Grows.add (sized_int32 t.TimeoutMs))
    |>.andThen (Grows.add (sized_bool t.ValidateOnly)))
theorem CreatePartitionsRequest.reads (version : Int16) (t : CreatePartitionsRequest) (h : t.Fits version) (t0 : CreatePartitionsRequest) :
    Reads (CreatePartitionsRequest.decode version t0) (CreatePartitionsRequest.wire version t) (t.seen version t0) :=
  ((Step.structs (get := fun (t : CreatePartitionsRequest) => t.Topics) (set := fun (t : CreatePartitionsRequest) x => { t with Topics := x }) (fun x hx => CreatePartitionsTopic37.reads version x hx {}) h.Topics)
    |>.andThen (Step.field (set := fun (t : CreatePartitionsRequest) x => { t with TimeoutMs := x }) (reads_int32 t.TimeoutMs))
    |>.andThen (Step.field (set := fun (t : CreatePartitionsRequest) x => { t with ValidateOnly := x }) (reads_bool t.ValidateOnly)) : Step _ _ _) t0
theorem CreatePartitionsRequest.tame (version : Int16) (t0 : CreatePartitionsRequest) : Tame (CreatePartitionsRequest.decode version t0) :=
  ((TameStep.structs (CreatePartitionsTopic37.tame version {}))
    |>.andThen (TameStep.field tame_int32)
    |>.andThen (TameStep.field tame_bool) : TameStep _) t0
theorem CreatePartitionsRequest.calm (version : Int16) (t0 : CreatePartitionsRequest) :
    Calm (CreatePartitionsRequest.decode version t0) (fun _ => True) :=
  ((CalmStep.structs (CreatePartitionsTopic37.tame version {}) (CreatePartitionsTopic37.calm version {}))
    |>.andThen (CalmStep.field tame_int32 calm_int32)
    |>.andThen (CalmStep.field tame_bool calm_bool) : CalmStep _).2 t0
theorem CreatePartitionsRequest.canon (version : Int16) (t : CreatePartitionsRequest) (h : t.Canon version) :
    t.seen version {} = t :=
  CreatePartitionsRequest.ext (canon_structs (CreatePartitionsTopic37.canon version) h.Topics) rfl rfl
theorem CreatePartitionsRequest.again (version : Int16) (t t0 : CreatePartitionsRequest) :
    CreatePartitionsRequest.wire version (t.seen version t0) = CreatePartitionsRequest.wire version t :=
  app_congr (app_congr (again_structs (fun x => CreatePartitionsTopic37.again version x {}) t.Topics) (rfl)) (rfl)
theorem CreatePartitionsRequest.lawful : Lawful CreatePartitionsRequest.type CreatePartitionsRequest.layout :=
  ⟨CreatePartitionsRequest.emits, CreatePartitionsRequest.sized, CreatePartitionsRequest.reads, CreatePartitionsRequest.tame, CreatePartitionsRequest.calm, CreatePartitionsRequest.canon, CreatePartitionsRequest.again⟩

theorem CreatePartitionsTopicResult37.emits (version : Int16) (t : CreatePartitionsTopicResult37) :
    Emits (CreatePartitionsTopicResult37.encode version t) (CreatePartitionsTopicResult37.wire version t) :=
  (emits_string t.Name)
    |>.andThen (emits_int16 t.ErrorCode)
    |>.andThen (emits_string t.ErrorMessage)
theorem CreatePartitionsTopicResult37.sized (version : Int16) (t : CreatePartitionsTopicResult37) :
    Sized (CreatePartitionsTopicResult37.size version t) (CreatePartitionsTopicResult37.wire version t) :=
  Grows.sized ((Grows.add (sized_string t.Name))
    |>.andThen (Grows.add (sized_int16 t.ErrorCode))
    |>.andThen (Grows.add (sized_string t.ErrorMessage)))
theorem CreatePartitionsTopicResult37.reads (version : Int16) (t : CreatePartitionsTopicResult37) (h : t.Fits version) (t0 : CreatePartitionsTopicResult37) :
    Reads (CreatePartitionsTopicResult37.decode version t0) (CreatePartitionsTopicResult37.wire version t) (t.seen version t0) :=
  ((Step.field (set := fun (t : CreatePartitionsTopicResult37) x => { t with Name := x }) (reads_string h.Name))
    |>.andThen (Step.field (set := fun (t : CreatePartitionsTopicResult37) x => { t with ErrorCode := x }) (reads_int16 t.ErrorCode))
    |>.andThen (Step.field (set := fun (t : CreatePartitionsTopicResult37) x => { t with ErrorMessage := x }) (reads_string h.ErrorMessage)) : Step _ _ _) t0
theorem CreatePartitionsTopicResult37.tame (version : Int16) (t0 : CreatePartitionsTopicResult37) : Tame (CreatePartitionsTopicResult37.decode version t0) :=
  ((TameStep.field tame_string)
    |>.andThen (TameStep.field tame_int16)
    |>.andThen (TameStep.field tame_string) : TameStep _) t0
theorem CreatePartitionsTopicResult37.calm (version : Int16) (t0 : CreatePartitionsTopicResult37) :
    Calm (CreatePartitionsTopicResult37.decode version t0) (fun _ => True) :=
  ((CalmStep.field tame_string calm_string)
    |>.andThen (CalmStep.field tame_int16 calm_int16)
    |>.andThen (CalmStep.field tame_string calm_string) : CalmStep _).2 t0
theorem CreatePartitionsTopicResult37.canon (version : Int16) (t : CreatePartitionsTopicResult37) (_h : t.Canon version) :
    t.seen version {} = t :=
  CreatePartitionsTopicResult37.ext rfl rfl rfl
theorem CreatePartitionsTopicResult37.again (version : Int16) (t t0 : CreatePartitionsTopicResult37) :
    CreatePartitionsTopicResult37.wire version (t.seen version t0) = CreatePartitionsTopicResult37.wire version t :=
  app_congr (app_congr (rfl) (rfl)) (rfl)
theorem CreatePartitionsTopicResult37.lawful : Lawful CreatePartitionsTopicResult37.type CreatePartitionsTopicResult37.layout :=
  ⟨CreatePartitionsTopicResult37.emits, CreatePartitionsTopicResult37.sized, CreatePartitionsTopicResult37.reads, CreatePartitionsTopicResult37.tame, CreatePartitionsTopicResult37.calm, CreatePartitionsTopicResult37.canon, CreatePartitionsTopicResult37.again⟩

theorem CreatePartitionsResponse.emits (version : Int16) (t : CreatePartitionsResponse) :
    Emits (CreatePartitionsResponse.encode version t) (CreatePartitionsResponse.wire version t) :=
  (emits_int32 t.ThrottleTimeMs)
    |>.andThen (emits_structs (CreatePartitionsTopicResult37.emits version) t.Results)
theorem CreatePartitionsResponse.sized (version : Int16) (t : CreatePartitionsResponse) :
    Sized (CreatePartitionsResponse.size version t) (CreatePartitionsResponse.wire version t) :=
  Grows.sized ((Grows.add (sized_int32 t.ThrottleTimeMs))
    |>.andThen (Grows.structs (CreatePartitionsTopicResult37.sized version) t.Results))
theorem CreatePartitionsResponse.reads (version : Int16) (t : CreatePartitionsResponse) (h : t.Fits version) (t0 : CreatePartitionsResponse) :
    Reads (CreatePartitionsResponse.decode version t0) (CreatePartitionsResponse.wire version t) (t.seen version t0) :=
  ((Step.field (set := fun (t : CreatePartitionsResponse) x => { t with ThrottleTimeMs := x }) (reads_int32 t.ThrottleTimeMs))
    |>.andThen (Step.structs (get := fun (t : CreatePartitionsResponse) => t.Results) (set := fun (t : CreatePartitionsResponse) x => { t with Results := x }) (fun x hx => CreatePartitionsTopicResult37.reads version x hx {}) h.Results) : Step _ _ _) t0
theorem CreatePartitionsResponse.tame (version : Int16) (t0 : CreatePartitionsResponse) : Tame (CreatePartitionsResponse.decode version t0) :=
  ((TameStep.field tame_int32)
    |>.andThen (TameStep.structs (CreatePartitionsTopicResult37.tame version {})) : TameStep _) t0
theorem CreatePartitionsResponse.calm (version : Int16) (t0 : CreatePartitionsResponse) :
    Calm (CreatePartitionsResponse.decode version t0) (fun _ => True) :=
  ((CalmStep.field tame_int32 calm_int32)
    |>.andThen (CalmStep.structs (CreatePartitionsTopicResult37.tame version {}) (CreatePartitionsTopicResult37.calm version {})) : CalmStep _).2 t0
theorem CreatePartitionsResponse.canon (version : Int16) (t : CreatePartitionsResponse) (h : t.Canon version) :
    t.seen version {} = t :=
  CreatePartitionsResponse.ext rfl (canon_structs (CreatePartitionsTopicResult37.canon version) h.Results)
theorem CreatePartitionsResponse.again (version : Int16) (t t0 : CreatePartitionsResponse) :
    CreatePartitionsResponse.wire version (t.seen version t0) = CreatePartitionsResponse.wire version t :=
  app_congr (rfl) (again_structs (fun x => CreatePartitionsTopicResult37.again version x {}) t.Results)
theorem CreatePartitionsResponse.lawful : Lawful CreatePartitionsResponse.type CreatePartitionsResponse.layout :=
  ⟨CreatePartitionsResponse.emits, CreatePartitionsResponse.sized, CreatePartitionsResponse.reads, CreatePartitionsResponse.tame, CreatePartitionsResponse.calm, CreatePartitionsResponse.canon, CreatePartitionsResponse.again⟩

end Kafka.Msg
