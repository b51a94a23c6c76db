import Verif.Message.StepLemmas
import Verif.Gen.Spec.AlterConfigs
/-!
Generated by tools/gen_messages.py: laws of the AlterConfigs messages.
-/
namespace Kafka.Msg

theorem AlterableConfig33.emits (version : Int16) (t : AlterableConfig33) :
    Emits (AlterableConfig33.encode version t) (AlterableConfig33.wire version t) :=
  (emits_string t.Name)
    |>.andThen (emits_string t.Value)
theorem AlterableConfig33.sized (version : Int16) (t : AlterableConfig33) :
    Sized (AlterableConfig33.size version t) (AlterableConfig33.wire version t) :=
  Grows.sized ((Grows.add (sized_string t.Name))
    |>.andThen (Grows.add (sized_string t.Value)))
theorem AlterableConfig33.reads (version : Int16) (t : AlterableConfig33) (h : t.Fits version) (t0 : AlterableConfig33) :
    Reads (AlterableConfig33.decode version t0) (AlterableConfig33.wire version t) (t.seen version t0) :=
  ((Step.field (set := fun (t : AlterableConfig33) x => { t with Name := x }) (reads_string h.Name))
    |>.andThen (Step.field (set := fun (t : AlterableConfig33) x => { t with Value := x }) (reads_string h.Value)) : Step _ _ _) t0
theorem AlterableConfig33.tame (version : Int16) (t0 : AlterableConfig33) : Tame (AlterableConfig33.decode version t0) :=
  ((TameStep.field tame_string)
    |>.andThen (TameStep.field tame_string) : TameStep _) t0
theorem AlterableConfig33.calm (version : Int16) (t0 : AlterableConfig33) :
    Calm (AlterableConfig33.decode version t0) (fun _ => True) :=
  ((CalmStep.field tame_string calm_string)
    |>.andThen (CalmStep.field tame_string calm_string) : CalmStep _).2 t0
theorem AlterableConfig33.canon (version : Int16) (t : AlterableConfig33) (_h : t.Canon version) :
    t.seen version {} = t :=
  AlterableConfig33.ext rfl rfl
theorem AlterableConfig33.again (version : Int16) (t t0 : AlterableConfig33) :
    AlterableConfig33.wire version (t.seen version t0) = AlterableConfig33.wire version t :=
  app_congr (rfl) (rfl)
theorem AlterableConfig33.lawful : Lawful AlterableConfig33.type AlterableConfig33.layout :=
  ⟨AlterableConfig33.emits, AlterableConfig33.sized, AlterableConfig33.reads, AlterableConfig33.tame, AlterableConfig33.calm, AlterableConfig33.canon, AlterableConfig33.again⟩

theorem AlterConfigsResource33.emits (version : Int16) (t : AlterConfigsResource33) :
    Emits (AlterConfigsResource33.encode version t) (AlterConfigsResource33.wire version t) :=
  (emits_int8 t.ResourceType)
    |>.andThen (emits_string t.ResourceName)
    |>.andThen (emits_structs (AlterableConfig33.emits version) t.Configs)
theorem AlterConfigsResource33.sized (version : Int16) (t : AlterConfigsResource33) :
    Sized (AlterConfigsResource33.size version t) (AlterConfigsResource33.wire version t) :=
  Grows.sized ((Grows.add (sized_int8 t.ResourceType))
    |>.andThen (Grows.add (sized_string t.ResourceName))
    |>.andThen (Grows.structs (AlterableConfig33.sized version) t.Configs))
theorem AlterConfigsResource33.reads (version : Int16) (t : AlterConfigsResource33) (h : t.Fits version) (t0 : AlterConfigsResource33) :
    Reads (AlterConfigsResource33.decode version t0) (AlterConfigsResource33.wire version t) (t.seen version t0) :=
  ((Step.field (set := fun (t : AlterConfigsResource33) x => { t with ResourceType := x }) (reads_int8 t.ResourceType))
    |>.andThen (Step.field (set := fun (t : AlterConfigsResource33) x => { t with ResourceName := x }) (reads_string h.ResourceName))
    |>.andThen (Step.structs (get := fun (t : AlterConfigsResource33) => t.Configs) (set := fun (t : AlterConfigsResource33) x => { t with Configs := x }) (fun x hx => AlterableConfig33.reads version x hx {}) h.Configs) : Step _ _ _) t0
theorem AlterConfigsResource33.tame (version : Int16) (t0 : AlterConfigsResource33) : Tame (AlterConfigsResource33.decode version t0) :=
  ((TameStep.field tame_int8)
    |>.andThen (TameStep.field tame_string)
    |>.andThen (TameStep.structs (AlterableConfig33.tame version {})) : TameStep _) t0
theorem AlterConfigsResource33.calm (version : Int16) (t0 : AlterConfigsResource33) :
    Calm (AlterConfigsResource33.decode version t0) (fun _ => True) :=
  ((CalmStep.field tame_int8 calm_int8)
    |>.andThen (CalmStep.field tame_string calm_string)
    |>.andThen (CalmStep.structs (AlterableConfig33.tame version {}) (AlterableConfig33.calm version {})) : CalmStep _).2 t0
theorem AlterConfigsResource33.canon (version : Int16) (t : AlterConfigsResource33) (h : t.Canon version) :
    t.seen version {} = t :=
  AlterConfigsResource33.ext rfl rfl (canon_structs (AlterableConfig33.canon version) h.Configs)
theorem AlterConfigsResource33.again (version : Int16) (t t0 : AlterConfigsResource33) :
    AlterConfigsResource33.wire version (t.seen version t0) = AlterConfigsResource33.wire version t :=
  app_congr (app_congr (rfl) (rfl)) (again_structs (fun x => AlterableConfig33.again version x {}) t.Configs)
theorem AlterConfigsResource33.lawful : Lawful AlterConfigsResource33.type AlterConfigsResource33.layout :=
  ⟨AlterConfigsResource33.emits, AlterConfigsResource33.sized, AlterConfigsResource33.reads, AlterConfigsResource33.tame, AlterConfigsResource33.calm, AlterConfigsResource33.canon, AlterConfigsResource33.again⟩

theorem AlterConfigsRequest.emits (version : Int16) (t : AlterConfigsRequest) :
    Emits (AlterConfigsRequest.encode version t) (AlterConfigsRequest.wire version t) :=
  (emits_structs (AlterConfigsResource33.emits version) t.Resources)
    |>.andThen (emits_bool t.ValidateOnly)
theorem AlterConfigsRequest.sized (version : Int16) (t : AlterConfigsRequest) :
    Sized (AlterConfigsRequest.size version t) (AlterConfigsRequest.wire version t) :=
  Grows.sized ((Grows.structs (AlterConfigsResource33.sized version) t.Resources)
    |>.andThen (Grows.add (sized_bool t.ValidateOnly)))
theorem AlterConfigsRequest.reads (version : Int16) (t : AlterConfigsRequest) (h : t.Fits version) (t0 : AlterConfigsRequest) :
    Reads (AlterConfigsRequest.decode version t0) (AlterConfigsRequest.wire version t) (t.seen version t0) :=
  ((Step.structs (get := fun (t : AlterConfigsRequest) => t.Resources) (set := fun (t : AlterConfigsRequest) x => { t with Resources := x }) (fun x hx => AlterConfigsResource33.reads version x hx {}) h.Resources)
    |>.andThen (Step.field (set := fun (t : AlterConfigsRequest) x => { t with ValidateOnly := x }) (reads_bool t.ValidateOnly)) : Step _ _ _) t0
theorem AlterConfigsRequest.tame (version : Int16) (t0 : AlterConfigsRequest) : Tame (AlterConfigsRequest.decode version t0) :=
  ((TameStep.structs (AlterConfigsResource33.tame version {}))
    |>.andThen (TameStep.field tame_bool) : TameStep _) t0
theorem AlterConfigsRequest.calm (version : Int16) (t0 : AlterConfigsRequest) :
    Calm (AlterConfigsRequest.decode version t0) (fun _ => True) :=
  ((CalmStep.structs (AlterConfigsResource33.tame version {}) (AlterConfigsResource33.calm version {}))
    |>.andThen (CalmStep.field tame_bool calm_bool) : CalmStep _).2 t0
theorem AlterConfigsRequest.canon (version : Int16) (t : AlterConfigsRequest) (h : t.Canon version) :
    t.seen version {} = t :=
  AlterConfigsRequest.ext (canon_structs (AlterConfigsResource33.canon version) h.Resources) rfl
theorem AlterConfigsRequest.again (version : Int16) (t t0 : AlterConfigsRequest) :
    AlterConfigsRequest.wire version (t.seen version t0) = AlterConfigsRequest.wire version t :=
  app_congr (again_structs (fun x => AlterConfigsResource33.again version x {}) t.Resources) (rfl)
theorem AlterConfigsRequest.lawful : Lawful AlterConfigsRequest.type AlterConfigsRequest.layout :=
  ⟨AlterConfigsRequest.emits, AlterConfigsRequest.sized, AlterConfigsRequest.reads, AlterConfigsRequest.tame, AlterConfigsRequest.calm, AlterConfigsRequest.canon, AlterConfigsRequest.again⟩

theorem AlterConfigsResourceResponse33.emits (version : Int16) (t : AlterConfigsResourceResponse33) :
    Emits (AlterConfigsResourceResponse33.encode version t) (AlterConfigsResourceResponse33.wire version t) :=
  (emits_int16 t.ErrorCode)
    |>.andThen (emits_string t.ErrorMessage)
    |>.andThen (emits_int8 t.ResourceType)
    |>.andThen (emits_string t.ResourceName)
theorem AlterConfigsResourceResponse33.sized (version : Int16) (t : AlterConfigsResourceResponse33) :
    Sized (AlterConfigsResourceResponse33.size version t) (AlterConfigsResourceResponse33.wire version t) :=
  Grows.sized ((Grows.add (sized_int16 t.ErrorCode))
    |>.andThen (Grows.add (sized_string t.ErrorMessage))
    |>.andThen (Grows.add (sized_int8 t.ResourceType))
    |>.andThen (Grows.add (sized_string t.ResourceName)))
theorem AlterConfigsResourceResponse33.reads (version : Int16) (t : AlterConfigsResourceResponse33) (h : t.Fits version) (t0 : AlterConfigsResourceResponse33) :
    Reads (AlterConfigsResourceResponse33.decode version t0) (AlterConfigsResourceResponse33.wire version t) (t.seen version t0) :=
  ((Step.field (set := fun (t : AlterConfigsResourceResponse33) x => { t with ErrorCode := x }) (reads_int16 t.ErrorCode))
    |>.andThen (Step.field (set := fun (t : AlterConfigsResourceResponse33) x => { t with ErrorMessage := x }) (reads_string h.ErrorMessage))
    |>.andThen (Step.field (set := fun (t : AlterConfigsResourceResponse33) x => { t with ResourceType := x }) (reads_int8 t.ResourceType))
    |>.andThen (Step.field (set := fun (t : AlterConfigsResourceResponse33) x => { t with ResourceName := x }) (reads_string h.ResourceName)) : Step _ _ _) t0
theorem AlterConfigsResourceResponse33.tame (version : Int16) (t0 : AlterConfigsResourceResponse33) : Tame (AlterConfigsResourceResponse33.decode version t0) :=
  ((TameStep.field tame_int16)
    |>.andThen (TameStep.field tame_string)
    |>.andThen (TameStep.field tame_int8)
    |>.andThen (TameStep.field tame_string) : TameStep _) t0
theorem AlterConfigsResourceResponse33.calm (version : Int16) (t0 : AlterConfigsResourceResponse33) :
    Calm (AlterConfigsResourceResponse33.decode version t0) (fun _ => True) :=
  ((CalmStep.field tame_int16 calm_int16)
    |>.andThen (CalmStep.field tame_string calm_string)
    |>.andThen (CalmStep.field tame_int8 calm_int8)
    |>.andThen (CalmStep.field tame_string calm_string) : CalmStep _).2 t0
theorem AlterConfigsResourceResponse33.canon (version : Int16) (t : AlterConfigsResourceResponse33) (_h : t.Canon version) :
    t.seen version {} = t :=
  AlterConfigsResourceResponse33.ext rfl rfl rfl rfl
theorem AlterConfigsResourceResponse33.again (version : Int16) (t t0 : AlterConfigsResourceResponse33) :
    AlterConfigsResourceResponse33.wire version (t.seen version t0) = AlterConfigsResourceResponse33.wire version t :=
  app_congr (app_congr (app_congr (rfl) (rfl)) (rfl)) (rfl)
theorem AlterConfigsResourceResponse33.lawful : Lawful AlterConfigsResourceResponse33.type AlterConfigsResourceResponse33.layout :=
  ⟨AlterConfigsResourceResponse33.emits, AlterConfigsResourceResponse33.sized, AlterConfigsResourceResponse33.reads, AlterConfigsResourceResponse33.tame, AlterConfigsResourceResponse33.calm, AlterConfigsResourceResponse33.canon, AlterConfigsResourceResponse33.again⟩

theorem AlterConfigsResponse.emits (version : Int16) (t : AlterConfigsResponse) :
    Emits (AlterConfigsResponse.encode version t) (AlterConfigsResponse.wire version t) :=
  (emits_int32 t.ThrottleTimeMs)
    |>.andThen (emits_structs (AlterConfigsResourceResponse33.emits version) t.Responses)
theorem AlterConfigsResponse.sized (version : Int16) (t : AlterConfigsResponse) :
    Sized (AlterConfigsResponse.size version t) (AlterConfigsResponse.wire version t) :=
  Grows.sized ((Grows.add (sized_int32 t.ThrottleTimeMs))
    |>.andThen (Grows.structs (AlterConfigsResourceResponse33.sized version) t.Responses))
theorem AlterConfigsResponse.reads (version : Int16) (t : AlterConfigsResponse) (h : t.Fits version) (t0 : AlterConfigsResponse) :
    Reads (AlterConfigsResponse.decode version t0) (AlterConfigsResponse.wire version t) (t.seen version t0) :=
  ((Step.field (set := fun (t : AlterConfigsResponse) x => { t with ThrottleTimeMs := x }) (reads_int32 t.ThrottleTimeMs))
    |>.andThen (Step.structs (get := fun (t : AlterConfigsResponse) => t.Responses) (set := fun (t : AlterConfigsResponse) x => { t with Responses := x }) (fun x hx => AlterConfigsResourceResponse33.reads version x hx {}) h.Responses) : Step _ _ _) t0
theorem AlterConfigsResponse.tame (version : Int16) (t0 : AlterConfigsResponse) : Tame (AlterConfigsResponse.decode version t0) :=
  ((TameStep.field tame_int32)
    |>.andThen (TameStep.structs (AlterConfigsResourceResponse33.tame version {})) : TameStep _) t0
theorem AlterConfigsResponse.calm (version : Int16) (t0 : AlterConfigsResponse) :
    Calm (AlterConfigsResponse.decode version t0) (fun _ => True) :=
  ((CalmStep.field tame_int32 calm_int32)
    |>.andThen (CalmStep.structs (AlterConfigsResourceResponse33.tame version {}) (AlterConfigsResourceResponse33.calm version {})) : CalmStep _).2 t0
theorem AlterConfigsResponse.canon (version : Int16) (t : AlterConfigsResponse) (h : t.Canon version) :
    t.seen version {} = t :=
  AlterConfigsResponse.ext rfl (canon_structs (AlterConfigsResourceResponse33.canon version) h.Responses)
theorem AlterConfigsResponse.again (version : Int16) (t t0 : AlterConfigsResponse) :
    AlterConfigsResponse.wire version (t.seen version t0) = AlterConfigsResponse.wire version t :=
  app_congr (rfl) (again_structs (fun x => AlterConfigsResourceResponse33.again version x {}) t.Responses)
theorem AlterConfigsResponse.lawful : Lawful AlterConfigsResponse.type AlterConfigsResponse.layout :=
  ⟨AlterConfigsResponse.emits, AlterConfigsResponse.sized, AlterConfigsResponse.reads, AlterConfigsResponse.tame, AlterConfigsResponse.calm, AlterConfigsResponse.canon, AlterConfigsResponse.again⟩

end Kafka.Msg
