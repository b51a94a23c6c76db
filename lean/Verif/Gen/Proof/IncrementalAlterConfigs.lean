import Verif.Message.StepLemmas
import Verif.Gen.Spec.IncrementalAlterConfigs
/-!
Generated by tools/gen_messages.py: laws of the IncrementalAlterConfigs messages.
-/
namespace Kafka.Msg

theorem AlterableConfig44.emits (version : Int16) (t : AlterableConfig44) :
    Emits (AlterableConfig44.encode version t) (AlterableConfig44.wire version t) :=
  (emits_string t.Name)
    |>.andThen (emits_int8 t.ConfigOperation)
    |>.andThen (emits_string t.Value)
theorem AlterableConfig44.sized (version : Int16) (t : AlterableConfig44) :
    Sized (AlterableConfig44.size version t) (AlterableConfig44.wire version t) :=
  Grows.sized ((Grows.add (sized_string t.Name))
    |>.andThen (Grows.add (sized_int8 t.ConfigOperation))
    |>.andThen (Grows.add (sized_string t.Value)))
theorem AlterableConfig44.reads (version : Int16) (t : AlterableConfig44) (h : t.Fits version) (t0 : AlterableConfig44) :
    Reads (AlterableConfig44.decode version t0) (AlterableConfig44.wire version t) (t.seen version t0) :=
  ((Step.field (set := fun (t : AlterableConfig44) x => { t with Name := x }) (reads_string h.Name))
    |>.andThen (Step.field (set := fun (t : AlterableConfig44) x => { t with ConfigOperation := x }) (reads_int8 t.ConfigOperation))
    |>.andThen (Step.field (set := fun (t : AlterableConfig44) x => { t with Value := x }) (reads_string h.Value)) : Step _ _ _) t0
theorem AlterableConfig44.tame (version : Int16) (t0 : AlterableConfig44) : Tame (AlterableConfig44.decode version t0) :=
  ((TameStep.field tame_string)
    |>.andThen (TameStep.field tame_int8)
    |>.andThen (TameStep.field tame_string) : TameStep _) t0
theorem AlterableConfig44.calm (version : Int16) (t0 : AlterableConfig44) :
    Calm (AlterableConfig44.decode version t0) (fun _ => True) :=
  ((CalmStep.field tame_string calm_string)
    |>.andThen (CalmStep.field tame_int8 calm_int8)
    |>.andThen (CalmStep.field tame_string calm_string) : CalmStep _).2 t0
theorem AlterableConfig44.canon (version : Int16) (t : AlterableConfig44) (_h : t.Canon version) :
    t.seen version {} = t :=
  AlterableConfig44.ext rfl rfl rfl
theorem AlterableConfig44.again (version : Int16) (t t0 : AlterableConfig44) :
    AlterableConfig44.wire version (t.seen version t0) = AlterableConfig44.wire version t :=
  app_congr (app_congr (rfl) (rfl)) (rfl)
theorem AlterableConfig44.lawful : Lawful AlterableConfig44.type AlterableConfig44.layout :=
  ⟨AlterableConfig44.emits, AlterableConfig44.sized, AlterableConfig44.reads, AlterableConfig44.tame, AlterableConfig44.calm, AlterableConfig44.canon, AlterableConfig44.again⟩

theorem AlterConfigsResource44.emits (version : Int16) (t : AlterConfigsResource44) :
    Emits (AlterConfigsResource44.encode version t) (AlterConfigsResource44.wire version t) :=
  (emits_int8 t.ResourceType)
    |>.andThen (emits_string t.ResourceName)
    |>.andThen (emits_structs (AlterableConfig44.emits version) t.Configs)
theorem AlterConfigsResource44.sized (version : Int16) (t : AlterConfigsResource44) :
    Sized (AlterConfigsResource44.size version t) (AlterConfigsResource44.wire version t) :=
  Grows.sized ((Grows.add (sized_int8 t.ResourceType))
    |>.andThen (Grows.add (sized_string t.ResourceName))
    |>.andThen (Grows.structs (AlterableConfig44.sized version) t.Configs))
theorem AlterConfigsResource44.reads (version : Int16) (t : AlterConfigsResource44) (h : t.Fits version) (t0 : AlterConfigsResource44) :
    Reads (AlterConfigsResource44.decode version t0) (AlterConfigsResource44.wire version t) (t.seen version t0) :=
  ((Step.field (set := fun (t : AlterConfigsResource44) x => { t with ResourceType := x }) (reads_int8 t.ResourceType))
    |>.andThen (Step.field (set := fun (t : AlterConfigsResource44) x => { t with ResourceName := x }) (reads_string h.ResourceName))
    |>.andThen (Step.structs (get := fun (t : AlterConfigsResource44) => t.Configs) (set := fun (t : AlterConfigsResource44) x => { t with Configs := x }) (fun x hx => AlterableConfig44.reads version x hx {}) h.Configs) : Step _ _ _) t0
theorem AlterConfigsResource44.tame (version : Int16) (t0 : AlterConfigsResource44) : Tame (AlterConfigsResource44.decode version t0) :=
  ((TameStep.field tame_int8)
    |>.andThen (TameStep.field tame_string)
    |>.andThen (TameStep.structs (AlterableConfig44.tame version {})) : TameStep _) t0
theorem AlterConfigsResource44.calm (version : Int16) (t0 : AlterConfigsResource44) :
    Calm (AlterConfigsResource44.decode version t0) (fun _ => True) :=
  ((CalmStep.field tame_int8 calm_int8)
    |>.andThen (CalmStep.field tame_string calm_string)
    |>.andThen (CalmStep.structs (AlterableConfig44.tame version {}) (AlterableConfig44.calm version {})) : CalmStep _).2 t0
theorem AlterConfigsResource44.canon (version : Int16) (t : AlterConfigsResource44) (h : t.Canon version) :
    t.seen version {} = t :=
  AlterConfigsResource44.ext rfl rfl (canon_structs (AlterableConfig44.canon version) h.Configs)
theorem AlterConfigsResource44.again (version : Int16) (t t0 : AlterConfigsResource44) :
    AlterConfigsResource44.wire version (t.seen version t0) = AlterConfigsResource44.wire version t :=
  app_congr (app_congr (rfl) (rfl)) (again_structs (fun x => AlterableConfig44.again version x {}) t.Configs)
theorem AlterConfigsResource44.lawful : Lawful AlterConfigsResource44.type AlterConfigsResource44.layout :=
  ⟨AlterConfigsResource44.emits, AlterConfigsResource44.sized, AlterConfigsResource44.reads, AlterConfigsResource44.tame, AlterConfigsResource44.calm, AlterConfigsResource44.canon, AlterConfigsResource44.again⟩

theorem IncrementalAlterConfigsRequest.emits (version : Int16) (t : IncrementalAlterConfigsRequest) :
    Emits (IncrementalAlterConfigsRequest.encode version t) (IncrementalAlterConfigsRequest.wire version t) :=
  (emits_structs (AlterConfigsResource44.emits version) t.Resources)
    |>.andThen (emits_bool t.ValidateOnly)
theorem IncrementalAlterConfigsRequest.sized (version : Int16) (t : IncrementalAlterConfigsRequest) :
    Sized (IncrementalAlterConfigsRequest.size version t) (IncrementalAlterConfigsRequest.wire version t) :=
  Grows.sized ((Grows.structs (AlterConfigsResource44.sized version) t.Resources)
    |>.andThen (Grows.add (sized_bool t.ValidateOnly)))
theorem IncrementalAlterConfigsRequest.reads (version : Int16) (t : IncrementalAlterConfigsRequest) (h : t.Fits version) (t0 : IncrementalAlterConfigsRequest) :
    Reads (IncrementalAlterConfigsRequest.decode version t0) (IncrementalAlterConfigsRequest.wire version t) (t.seen version t0) :=
  ((Step.structs (get := fun (t : IncrementalAlterConfigsRequest) => t.Resources) (set := fun (t : IncrementalAlterConfigsRequest) x => { t with Resources := x }) (fun x hx => AlterConfigsResource44.reads version x hx {}) h.Resources)
    |>.andThen (Step.field (set := fun (t : IncrementalAlterConfigsRequest) x => { t with ValidateOnly := x }) (reads_bool t.ValidateOnly)) : Step _ _ _) t0
theorem IncrementalAlterConfigsRequest.tame (version : Int16) (t0 : IncrementalAlterConfigsRequest) : Tame (IncrementalAlterConfigsRequest.decode version t0) :=
  ((TameStep.structs (AlterConfigsResource44.tame version {}))
    |>.andThen (TameStep.field tame_bool) : TameStep _) t0
theorem IncrementalAlterConfigsRequest.calm (version : Int16) (t0 : IncrementalAlterConfigsRequest) :
    Calm (IncrementalAlterConfigsRequest.decode version t0) (fun _ => True) :=
  ((CalmStep.structs (AlterConfigsResource44.tame version {}) (AlterConfigsResource44.calm version {}))
    |>.andThen (CalmStep.field tame_bool calm_bool) : CalmStep _).2 t0
theorem IncrementalAlterConfigsRequest.canon (version : Int16) (t : IncrementalAlterConfigsRequest) (h : t.Canon version) :
    t.seen version {} = t :=
  IncrementalAlterConfigsRequest.ext (canon_structs (AlterConfigsResource44.canon version) h.Resources) rfl
theorem IncrementalAlterConfigsRequest.again (version : Int16) (t t0 : IncrementalAlterConfigsRequest) :
    IncrementalAlterConfigsRequest.wire version (t.seen version t0) = IncrementalAlterConfigsRequest.wire version t :=
  app_congr (again_structs (fun x => AlterConfigsResource44.again version x {}) t.Resources) (rfl)
theorem IncrementalAlterConfigsRequest.lawful : Lawful IncrementalAlterConfigsRequest.type IncrementalAlterConfigsRequest.layout :=
  ⟨IncrementalAlterConfigsRequest.emits, IncrementalAlterConfigsRequest.sized, IncrementalAlterConfigsRequest.reads, IncrementalAlterConfigsRequest.tame, IncrementalAlterConfigsRequest.calm, IncrementalAlterConfigsRequest.canon, IncrementalAlterConfigsRequest.again⟩

theorem AlterConfigsResourceResponse44.emits (version : Int16) (t : AlterConfigsResourceResponse44) :
    Emits (AlterConfigsResourceResponse44.encode version t) (AlterConfigsResourceResponse44.wire version t) :=
  (emits_int16 t.ErrorCode)
    |>.andThen (emits_string t.ErrorMessage)
    |>.andThen (emits_int8 t.ResourceType)
    |>.andThen (emits_string t.ResourceName)
theorem AlterConfigsResourceResponse44.sized (version : Int16) (t : AlterConfigsResourceResponse44) :
    Sized (AlterConfigsResourceResponse44.size version t) (AlterConfigsResourceResponse44.wire version t) :=
  Grows.sized ((Grows.add (sized_int16 t.ErrorCode))
    |>.andThen (Grows.add (sized_string t.ErrorMessage))
    |>.andThen (Grows.add (sized_int8 t.ResourceType))
    |>.andThen (Grows.add (sized_string t.ResourceName)))
theorem AlterConfigsResourceResponse44.reads (version : Int16) (t : AlterConfigsResourceResponse44) (h : t.Fits version) (t0 : AlterConfigsResourceResponse44) :
    Reads (AlterConfigsResourceResponse44.decode version t0) (AlterConfigsResourceResponse44.wire version t) (t.seen version t0) :=
  ((Step.field (set := fun (t : AlterConfigsResourceResponse44) x => { t with ErrorCode := x }) (reads_int16 t.ErrorCode))
    |>.andThen (Step.field (set := fun (t : AlterConfigsResourceResponse44) x => { t with ErrorMessage := x }) (reads_string h.ErrorMessage))
    |>.andThen (Step.field (set := fun (t : AlterConfigsResourceResponse44) x => { t with ResourceType := x }) (reads_int8 t.ResourceType))
    |>.andThen (Step.field (set := fun (t : AlterConfigsResourceResponse44) x => { t with ResourceName := x }) (reads_string h.ResourceName)) : Step _ _ _) t0
theorem AlterConfigsResourceResponse44.tame (version : Int16) (t0 : AlterConfigsResourceResponse44) : Tame (AlterConfigsResourceResponse44.decode version t0) :=
  ((TameStep.field tame_int16)
    |>.andThen (TameStep.field tame_string)
    |>.andThen (TameStep.field tame_int8)
    |>.andThen (TameStep.field tame_string) : TameStep _) t0
theorem AlterConfigsResourceResponse44.calm (version : Int16) (t0 : AlterConfigsResourceResponse44) :
    Calm (AlterConfigsResourceResponse44.decode version t0) (fun _ => True) :=
  ((CalmStep.field tame_int16 calm_int16)
    |>.andThen (CalmStep.field tame_string calm_string)
    |>.andThen (CalmStep.field tame_int8 calm_int8)
    |>.andThen (CalmStep.field tame_string calm_string) : CalmStep _).2 t0
theorem AlterConfigsResourceResponse44.canon (version : Int16) (t : AlterConfigsResourceResponse44) (_h : t.Canon version) :
    t.seen version {} = t :=
  AlterConfigsResourceResponse44.ext rfl rfl rfl rfl
theorem AlterConfigsResourceResponse44.again (version : Int16) (t t0 : AlterConfigsResourceResponse44) :
    AlterConfigsResourceResponse44.wire version (t.seen version t0) = AlterConfigsResourceResponse44.wire version t :=
  app_congr (app_congr (app_congr (rfl) (rfl)) (rfl)) (rfl)
theorem AlterConfigsResourceResponse44.lawful : Lawful AlterConfigsResourceResponse44.type AlterConfigsResourceResponse44.layout :=
  ⟨AlterConfigsResourceResponse44.emits, AlterConfigsResourceResponse44.sized, AlterConfigsResourceResponse44.reads, AlterConfigsResourceResponse44.tame, AlterConfigsResourceResponse44.calm, AlterConfigsResourceResponse44.canon, AlterConfigsResourceResponse44.again⟩

theorem IncrementalAlterConfigsResponse.emits (version : Int16) (t : IncrementalAlterConfigsResponse) :
    Emits (IncrementalAlterConfigsResponse.encode version t) (IncrementalAlterConfigsResponse.wire version t) :=
  (emits_int32 t.ThrottleTimeMs)
    |>.andThen (emits_structs (AlterConfigsResourceResponse44.emits version) t.Responses)
theorem IncrementalAlterConfigsResponse.sized (version : Int16) (t : IncrementalAlterConfigsResponse) :
    Sized (IncrementalAlterConfigsResponse.size version t) (IncrementalAlterConfigsResponse.wire version t) :=
  Grows.sized ((Grows.add (sized_int32 t.ThrottleTimeMs))
    |>.andThen (Grows.structs (AlterConfigsResourceResponse44.sized version) t.Responses))
theorem IncrementalAlterConfigsResponse.reads (version : Int16) (t : IncrementalAlterConfigsResponse) (h : t.Fits version) (t0 : IncrementalAlterConfigsResponse) :
    Reads (IncrementalAlterConfigsResponse.decode version t0) (IncrementalAlterConfigsResponse.wire version t) (t.seen version t0) :=
  ((Step.field (set := fun (t : IncrementalAlterConfigsResponse) x => { t with ThrottleTimeMs := x }) (reads_int32 t.ThrottleTimeMs))
    |>.andThen (Step.structs (get := fun (t : IncrementalAlterConfigsResponse) => t.Responses) (set := fun (t : IncrementalAlterConfigsResponse) x => { t with Responses := x }) (fun x hx => AlterConfigsResourceResponse44.reads version x hx {}) h.Responses) : Step _ _ _) t0
theorem IncrementalAlterConfigsResponse.tame (version : Int16) (t0 : IncrementalAlterConfigsResponse) : Tame (IncrementalAlterConfigsResponse.decode version t0) :=
  ((TameStep.field tame_int32)
    |>.andThen (TameStep.structs (AlterConfigsResourceResponse44.tame version {})) : TameStep _) t0
theorem IncrementalAlterConfigsResponse.calm (version : Int16) (t0 : IncrementalAlterConfigsResponse) :
    Calm (IncrementalAlterConfigsResponse.decode version t0) (fun _ => True) :=
  ((CalmStep.field tame_int32 calm_int32)
    |>.andThen (CalmStep.structs (AlterConfigsResourceResponse44.tame version {}) (AlterConfigsResourceResponse44.calm version {})) : CalmStep _).2 t0
theorem IncrementalAlterConfigsResponse.canon (version : Int16) (t : IncrementalAlterConfigsResponse) (h : t.Canon version) :
    t.seen version {} = t :=
  IncrementalAlterConfigsResponse.ext rfl (canon_structs (AlterConfigsResourceResponse44.canon version) h.Responses)
theorem IncrementalAlterConfigsResponse.again (version : Int16) (t t0 : IncrementalAlterConfigsResponse) :
    IncrementalAlterConfigsResponse.wire version (t.seen version t0) = IncrementalAlterConfigsResponse.wire version t :=
  app_congr (rfl) (again_structs (fun x => AlterConfigsResourceResponse44.again version x {}) t.Responses)
theorem IncrementalAlterConfigsResponse.lawful : Lawful IncrementalAlterConfigsResponse.type IncrementalAlterConfigsResponse.layout :=
  ⟨IncrementalAlterConfigsResponse.emits, IncrementalAlterConfigsResponse.sized, IncrementalAlterConfigsResponse.reads, IncrementalAlterConfigsResponse.tame, IncrementalAlterConfigsResponse.calm, IncrementalAlterConfigsResponse.canon, IncrementalAlterConfigsResponse.again⟩

end Kafka.Msg
