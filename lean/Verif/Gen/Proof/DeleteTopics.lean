import Verif.Message.StepLemmas
import Verif.Gen.Spec.DeleteTopics
/-!
Generated by tools/gen_messages.py: laws of the DeleteTopics messages.
-/
namespace Kafka.Msg

theorem DeleteTopicsRequest.emits (version : Int16) (t : DeleteTopicsRequest) :
    Emits (DeleteTopicsRequest.encode version t) (DeleteTopicsRequest.wire version t) :=
  (emits_stringArray t.TopicNames)
    |>.andThen (emits_int32 t.TimeoutMs)
theorem DeleteTopicsRequest.sized (version : Int16) (t : DeleteTopicsRequest) :
    Sized (DeleteTopicsRequest.size version t) (DeleteTopicsRequest.wire version t) :=
  Grows.sized ((Grows.add (sized_stringArray t.TopicNames))
    |>.andThen (Grows.add (sized_int32 t.TimeoutMs)))
theorem DeleteTopicsRequest.reads (version : Int16) (t : DeleteTopicsRequest) (h : t.Fits version) (t0 : DeleteTopicsRequest) :
    Reads (DeleteTopicsRequest.decode version t0) (DeleteTopicsRequest.wire version t) (t.seen version t0) :=
  ((Step.field (set := fun (t : DeleteTopicsRequest) x => { t with TopicNames := x }) (reads_stringArray h.TopicNames))
    |>.andThen (Step.field (set := fun (t : DeleteTopicsRequest) x => { t with TimeoutMs := x }) (reads_int32 t.TimeoutMs)) : Step _ _ _) t0
theorem DeleteTopicsRequest.tame (version : Int16) (t0 : DeleteTopicsRequest) : Tame (DeleteTopicsRequest.decode version t0) :=
  ((TameStep.field tame_stringArray)
    |>.andThen (TameStep.field tame_int32) : TameStep _) t0
theorem DeleteTopicsRequest.calm (version : Int16) (t0 : DeleteTopicsRequest) :
    Calm (DeleteTopicsRequest.decode version t0) (fun _ => True) :=
  ((CalmStep.field tame_stringArray calm_stringArray)
    |>.andThen (CalmStep.field tame_int32 calm_int32) : CalmStep _).2 t0
theorem DeleteTopicsRequest.canon (version : Int16) (t : DeleteTopicsRequest) (_h : t.Canon version) :
    t.seen version {} = t :=
  DeleteTopicsRequest.ext rfl rfl
theorem DeleteTopicsRequest.again (version : Int16) (t t0 : DeleteTopicsRequest) :
    DeleteTopicsRequest.wire version (t.seen version t0) = DeleteTopicsRequest.wire version t :=
  app_congr (rfl) (rfl)
theorem DeleteTopicsRequest.lawful : Lawful DeleteTopicsRequest.type DeleteTopicsRequest.layout :=
  ⟨DeleteTopicsRequest.emits, DeleteTopicsRequest.sized, DeleteTopicsRequest.reads, DeleteTopicsRequest.tame, DeleteTopicsRequest.calm, DeleteTopicsRequest.canon, DeleteTopicsRequest.again⟩

theorem DeletableTopicResult20.emits (version : Int16) (t : DeletableTopicResult20) :
    Emits (DeletableTopicResult20.encode version t) (DeletableTopicResult20.wire version t) :=
  (emits_string t.Name)
    |>.andThen (emits_int16 t.ErrorCode)
theorem DeletableTopicResult20.sized (version : Int16) (t : DeletableTopicResult20) :
    Sized (DeletableTopicResult20.size version t) (DeletableTopicResult20.wire version t) :=
  Grows.sized ((Grows.add (sized_string t.Name))
    |>.andThen (Grows.add (sized_int16 t.ErrorCode)))
theorem DeletableTopicResult20.reads (version : Int16) (t : DeletableTopicResult20) (h : t.Fits version) (t0 : DeletableTopicResult20) :
    Reads (DeletableTopicResult20.decode version t0) (DeletableTopicResult20.wire version t) (t.seen version t0) :=
  ((Step.field (set := fun (t : DeletableTopicResult20) x => { t with Name := x }) (reads_string h.Name))
    |>.andThen (Step.field (set := fun (t : DeletableTopicResult20) x => { t with ErrorCode := x }) (reads_int16 t.ErrorCode)) : Step _ _ _) t0
theorem DeletableTopicResult20.tame (version : Int16) (t0 : DeletableTopicResult20) : Tame (DeletableTopicResult20.decode version t0) :=
  ((TameStep.field tame_string)
    |>.andThen (TameStep.field tame_int16) : TameStep _) t0
theorem DeletableTopicResult20.calm (version : Int16) (t0 : DeletableTopicResult20) :
    Calm (DeletableTopicResult20.decode version t0) (fun _ => True) :=
  ((CalmStep.field tame_string calm_string)
    |>.andThen (CalmStep.field tame_int16 calm_int16) : CalmStep _).2 t0
theorem DeletableTopicResult20.canon (version : Int16) (t : DeletableTopicResult20) (_h : t.Canon version) :
    t.seen version {} = t :=
  DeletableTopicResult20.ext rfl rfl
theorem DeletableTopicResult20.again (version : Int16) (t t0 : DeletableTopicResult20) :
    DeletableTopicResult20.wire version (t.seen version t0) = DeletableTopicResult20.wire version t :=
  app_congr (rfl) (rfl)
theorem DeletableTopicResult20.lawful : Lawful DeletableTopicResult20.type DeletableTopicResult20.layout :=
  ⟨DeletableTopicResult20.emits, DeletableTopicResult20.sized, DeletableTopicResult20.reads, DeletableTopicResult20.tame, DeletableTopicResult20.calm, DeletableTopicResult20.canon, DeletableTopicResult20.again⟩

theorem DeleteTopicsResponse.emits (version : Int16) (t : DeleteTopicsResponse) :
    Emits (DeleteTopicsResponse.encode version t) (DeleteTopicsResponse.wire version t) :=
  (Emits.onlyIf (emits_int32 t.ThrottleTimeMs))
    |>.andThen (emits_structs (DeletableTopicResult20.emits version) t.Responses)
theorem DeleteTopicsResponse.sized (version : Int16) (t : DeleteTopicsResponse) :
    Sized (DeleteTopicsResponse.size version t) (DeleteTopicsResponse.wire version t) :=
  Grows.sized ((Grows.onlyIf (Grows.add (sized_int32 t.ThrottleTimeMs)))
    |>.andThen (Grows.structs (DeletableTopicResult20.sized version) t.Responses))
theorem DeleteTopicsResponse.reads (version : Int16) (t : DeleteTopicsResponse) (h : t.Fits version) (t0 : DeleteTopicsResponse) :
    Reads (DeleteTopicsResponse.decode version t0) (DeleteTopicsResponse.wire version t) (t.seen version t0) :=
  ((Step.optField (c := version ≥ 1) (set := fun (t : DeleteTopicsResponse) x => { t with ThrottleTimeMs := x }) (·.ThrottleTimeMs) (fun _ => rfl) fun _ => reads_int32 t.ThrottleTimeMs)
    |>.andThen (Step.structs (get := fun (t : DeleteTopicsResponse) => t.Responses) (set := fun (t : DeleteTopicsResponse) x => { t with Responses := x }) (fun x hx => DeletableTopicResult20.reads version x hx {}) h.Responses) : Step _ _ _) t0
theorem DeleteTopicsResponse.tame (version : Int16) (t0 : DeleteTopicsResponse) : Tame (DeleteTopicsResponse.decode version t0) :=
  ((TameStep.onlyIf (TameStep.field tame_int32))
    |>.andThen (TameStep.structs (DeletableTopicResult20.tame version {})) : TameStep _) t0
theorem DeleteTopicsResponse.calm (version : Int16) (t0 : DeleteTopicsResponse) :
    Calm (DeleteTopicsResponse.decode version t0) (fun _ => True) :=
  ((CalmStep.onlyIf (CalmStep.field tame_int32 calm_int32))
    |>.andThen (CalmStep.structs (DeletableTopicResult20.tame version {}) (DeletableTopicResult20.calm version {})) : CalmStep _).2 t0
theorem DeleteTopicsResponse.canon (version : Int16) (t : DeleteTopicsResponse) (h : t.Canon version) :
    t.seen version {} = t :=
  DeleteTopicsResponse.ext (canon_opt h.ThrottleTimeMs) (canon_structs (DeletableTopicResult20.canon version) h.Responses)
theorem DeleteTopicsResponse.again (version : Int16) (t t0 : DeleteTopicsResponse) :
    DeleteTopicsResponse.wire version (t.seen version t0) = DeleteTopicsResponse.wire version t :=
  app_congr (again_opt Wire.int32 t.ThrottleTimeMs t0.ThrottleTimeMs) (again_structs (fun x => DeletableTopicResult20.again version x {}) t.Responses)
theorem DeleteTopicsResponse.lawful : Lawful DeleteTopicsResponse.type DeleteTopicsResponse.layout :=
  ⟨DeleteTopicsResponse.emits, DeleteTopicsResponse.sized, DeleteTopicsResponse.reads, DeleteTopicsResponse.tame, DeleteTopicsResponse.calm, DeleteTopicsResponse.canon, DeleteTopicsResponse.again⟩

end Kafka.Msg
