import Verif.Message.StepLemmas
import Verif.Gen.Spec.CreateAcls
/-!
Generated by tools/gen_messages.py: laws of the CreateAcls messages.
-/
namespace Kafka.Msg

theorem CreatableAcl30.emits (version : Int16) (t : CreatableAcl30) :
    Emits (CreatableAcl30.encode version t) (CreatableAcl30.wire version t) :=
  (emits_int8 t.ResourceType)
    |>.andThen (emits_string t.ResourceName)
    |>.andThen (Emits.onlyIf (emits_int8 t.ResourcePatternType))
    |>.andThen (emits_string t.Principal)
    |>.andThen (emits_string t.Host)
    |>.andThen (emits_int8 t.Operation)
    |>.andThen (emits_int8 t.PermissionType)
theorem CreatableAcl30.sized (version : Int16) (t : CreatableAcl30) :
    Sized (CreatableAcl30.size version t) (CreatableAcl30.wire version t) :=
  Grows.sized ((Grows.add (sized_int8 t.ResourceType))
    |>.andThen (Grows.add (sized_string t.ResourceName))
    |>.andThen (Grows.onlyIf (Grows.add (sized_int8 t.ResourcePatternType)))
    |>.andThen (Grows.add (sized_string t.Principal))
    |>.andThen (Grows.add (sized_string t.Host))
    |>.andThen (Grows.add (sized_int8 t.Operation))
    |>.andThen (Grows.add (sized_int8 t.PermissionType)))
theorem CreatableAcl30.reads (version : Int16) (t : CreatableAcl30) (h : t.Fits version) (t0 : CreatableAcl30) :
    Reads (CreatableAcl30.decode version t0) (CreatableAcl30.wire version t) (t.seen version t0) :=
  ((Step.field (set := fun (t : CreatableAcl30) x => { t with ResourceType := x }) (reads_int8 t.ResourceType))
    |>.andThen (Step.field (set := fun (t : CreatableAcl30) x => { t with ResourceName := x }) (reads_string h.ResourceName))
    |>.andThen (Step.optField (c := version ≥ 1) (set := fun (t : CreatableAcl30) x => { t with ResourcePatternType := x }) (·.ResourcePatternType) (fun _ => rfl) fun _ => reads_int8 t.ResourcePatternType)
    |>.andThen (Step.field (set := fun (t : CreatableAcl30) x => { t with Principal := x }) (reads_string h.Principal))
    |>.andThen (Step.field (set := fun (t : CreatableAcl30) x => { t with Host := x }) (reads_string h.Host))
    |>.andThen (Step.field (set := fun (t : CreatableAcl30) x => { t with Operation := x }) (reads_int8 t.Operation))
    |>.andThen (Step.field (set := fun (t : CreatableAcl30) x => { t with PermissionType := x }) (reads_int8 t.PermissionType)) : Step _ _ _) t0
theorem CreatableAcl30.tame (version : Int16) (t0 : CreatableAcl30) : Tame (CreatableAcl30.decode version t0) :=
  ((TameStep.field tame_int8)
    |>.andThen (TameStep.field tame_string)
    |>.andThen (TameStep.onlyIf (TameStep.field tame_int8))
    |>.andThen (TameStep.field tame_string)
    |>.andThen (TameStep.field tame_string)
    |>.andThen (TameStep.field tame_int8)
    |>.andThen (TameStep.field tame_int8) : TameStep _) t0
theorem CreatableAcl30.calm (version : Int16) (t0 : CreatableAcl30) :
    Calm (CreatableAcl30.decode version t0) (fun _ => True) :=
  ((CalmStep.field tame_int8 calm_int8)
    |>.andThen (CalmStep.field tame_string calm_string)
    |>.andThen (CalmStep.onlyIf (CalmStep.field tame_int8 calm_int8))
    |>.andThen (CalmStep.field tame_string calm_string)
    |>.andThen (CalmStep.field tame_string calm_string)
    |>.andThen (CalmStep.field tame_int8 calm_int8)
    |>.andThen (CalmStep.field tame_int8 calm_int8) : CalmStep _).2 t0
theorem CreatableAcl30.canon (version : Int16) (t : CreatableAcl30) (h : t.Canon version) :
    t.seen version {} = t :=
  CreatableAcl30.ext rfl rfl (canon_opt h.ResourcePatternType) rfl rfl rfl rfl
theorem CreatableAcl30.again (version : Int16) (t t0 : CreatableAcl30) :
    CreatableAcl30.wire version (t.seen version t0) = CreatableAcl30.wire version t :=
  app_congr (app_congr (app_congr (app_congr (app_congr (app_congr (rfl) (rfl)) (again_opt Wire.int8 t.ResourcePatternType t0.ResourcePatternType)) (rfl)) (rfl)) (rfl)) (rfl)
theorem CreatableAcl30.lawful : Lawful CreatableAcl30.type CreatableAcl30.layout :=
  ⟨CreatableAcl30.emits, CreatableAcl30.sized, CreatableAcl30.reads, CreatableAcl30.tame, CreatableAcl30.calm, CreatableAcl30.canon, CreatableAcl30.again⟩

theorem CreateAclsRequest.emits (version : Int16) (t : CreateAclsRequest) :
    Emits (CreateAclsRequest.encode version t) (CreateAclsRequest.wire version t) :=
  emits_structs (CreatableAcl30.emits version) t.Creations
theorem CreateAclsRequest.sized (version : Int16) (t : CreateAclsRequest) :
    Sized (CreateAclsRequest.size version t) (CreateAclsRequest.wire version t) :=
  Grows.sized (Grows.structs (CreatableAcl30.sized version) t.Creations)
theorem CreateAclsRequest.reads (version : Int16) (t : CreateAclsRequest) (h : t.Fits version) (t0 : CreateAclsRequest) :
    Reads (CreateAclsRequest.decode version t0) (CreateAclsRequest.wire version t) (t.seen version t0) :=
  (Step.structs (get := fun (t : CreateAclsRequest) => t.Creations) (set := fun (t : CreateAclsRequest) x => { t with Creations := x }) (fun x hx => CreatableAcl30.reads version x hx {}) h.Creations : Step _ _ _) t0
theorem CreateAclsRequest.tame (version : Int16) (t0 : CreateAclsRequest) : Tame (CreateAclsRequest.decode version t0) :=
  (TameStep.structs (CreatableAcl30.tame version {}) : TameStep _) t0
theorem CreateAclsRequest.calm (version : Int16) (t0 : CreateAclsRequest) :
    Calm (CreateAclsRequest.decode version t0) (fun _ => True) :=
  (CalmStep.structs (CreatableAcl30.tame version {}) (CreatableAcl30.calm version {}) : CalmStep _).2 t0
theorem CreateAclsRequest.canon (version : Int16) (t : CreateAclsRequest) (h : t.Canon version) :
    t.seen version {} = t :=
  CreateAclsRequest.ext (canon_structs (CreatableAcl30.canon version) h.Creations)
theorem CreateAclsRequest.again (version : Int16) (t t0 : CreateAclsRequest) :
    CreateAclsRequest.wire version (t.seen version t0) = CreateAclsRequest.wire version t :=
  again_structs (fun x => CreatableAcl30.again version x {}) t.Creations
theorem CreateAclsRequest.lawful : Lawful CreateAclsRequest.type CreateAclsRequest.layout :=
  ⟨CreateAclsRequest.emits, CreateAclsRequest.sized, CreateAclsRequest.reads, CreateAclsRequest.tame, CreateAclsRequest.calm, CreateAclsRequest.canon, CreateAclsRequest.again⟩

theorem CreatableAclResult30.emits (version : Int16) (t : CreatableAclResult30) :
    Emits (CreatableAclResult30.encode version t) (CreatableAclResult30.wire version t) :=
  (emits_int16 t.ErrorCode)
    |>.andThen (emits_string t.ErrorMessage)
theorem CreatableAclResult30.sized (version : Int16) (t : CreatableAclResult30) :
    Sized (CreatableAclResult30.size version t) (CreatableAclResult30.wire version t) :=
  Grows.sized ((Grows.add (sized_int16 t.ErrorCode))
    |>.andThen (Grows.add (sized_string t.ErrorMessage)))
theorem CreatableAclResult30.reads (version : Int16) (t : CreatableAclResult30) (h : t.Fits version) (t0 : CreatableAclResult30) :
    Reads (CreatableAclResult30.decode version t0) (CreatableAclResult30.wire version t) (t.seen version t0) :=
  ((Step.field (set := fun (t : CreatableAclResult30) x => { t with ErrorCode := x }) (reads_int16 t.ErrorCode))
    |>.andThen (Step.field (set := fun (t : CreatableAclResult30) x => { t with ErrorMessage := x }) (reads_string h.ErrorMessage)) : Step _ _ _) t0
theorem CreatableAclResult30.tame (version : Int16) (t0 : CreatableAclResult30) : Tame (CreatableAclResult30.decode version t0) :=
  ((TameStep.field tame_int16)
    |>.andThen (TameStep.field tame_string) : TameStep _) t0
theorem CreatableAclResult30.calm (version : Int16) (t0 : CreatableAclResult30) :
    Calm (CreatableAclResult30.decode version t0) (fun _ => True) :=
  ((CalmStep.field tame_int16 calm_int16)
    |>.andThen (CalmStep.field tame_string calm_string) : CalmStep _).2 t0
theorem CreatableAclResult30.canon (version : Int16) (t : CreatableAclResult30) (_h : t.Canon version) :
    t.seen version {} = t :=
  CreatableAclResult30.ext rfl rfl
theorem CreatableAclResult30.again (version : Int16) (t t0 : CreatableAclResult30) :
    CreatableAclResult30.wire version (t.seen version t0) = CreatableAclResult30.wire version t :=
  app_congr (rfl) (rfl)
theorem CreatableAclResult30.lawful : Lawful CreatableAclResult30.type CreatableAclResult30.layout :=
  ⟨CreatableAclResult30.emits, CreatableAclResult30.sized, CreatableAclResult30.reads, CreatableAclResult30.tame, CreatableAclResult30.calm, CreatableAclResult30.canon, CreatableAclResult30.again⟩

theorem CreateAclsResponse.emits (version : Int16) (t : CreateAclsResponse) :
    Emits (CreateAclsResponse.encode version t) (CreateAclsResponse.wire version t) :=
  (emits_int32 t.ThrottleTimeMs)
    |>.andThen (emits_structs (CreatableAclResult30.emits version) t.Results)
theorem CreateAclsResponse.sized (version : Int16) (t : CreateAclsResponse) :
    Sized (CreateAclsResponse.size version t) (CreateAclsResponse.wire version t) :=
  Grows.sized ((Grows.add (sized_int32 t.ThrottleTimeMs))
    |>.andThen (Grows.structs (CreatableAclResult30.sized version) t.Results))
theorem CreateAclsResponse.reads (version : Int16) (t : CreateAclsResponse) (h : t.Fits version) (t0 : CreateAclsResponse) :
    Reads (CreateAclsResponse.decode version t0) (CreateAclsResponse.wire version t) (t.seen version t0) :=
  ((Step.field (set := fun (t : CreateAclsResponse) x => { t with ThrottleTimeMs := x }) (reads_int32 t.ThrottleTimeMs))
    |>.andThen (Step.structs (get := fun (t : CreateAclsResponse) => t.Results) (set := fun (t : CreateAclsResponse) x => { t with Results := x }) (fun x hx => CreatableAclResult30.reads version x hx {}) h.Results) : Step _ _ _) t0
theorem CreateAclsResponse.tame (version : Int16) (t0 : CreateAclsResponse) : Tame (CreateAclsResponse.decode version t0) :=
  ((TameStep.field tame_int32)
    |>.andThen (TameStep.structs (CreatableAclResult30.tame version {})) : TameStep _) t0
theorem CreateAclsResponse.calm (version : Int16) (t0 : CreateAclsResponse) :
    Calm (CreateAclsResponse.decode version t0) (fun _ => True) :=
  ((CalmStep.field tame_int32 calm_int32)
    |>.andThen (CalmStep.structs (CreatableAclResult30.tame version {}) (CreatableAclResult30.calm version {})) : CalmStep _).2 t0
theorem CreateAclsResponse.canon (version : Int16) (t : CreateAclsResponse) (h : t.Canon version) :
    t.seen version {} = t :=
  CreateAclsResponse.ext rfl (canon_structs (CreatableAclResult30.canon version) h.Results)
theorem CreateAclsResponse.again (version : Int16) (t t0 : CreateAclsResponse) :
    CreateAclsResponse.wire version (t.seen version t0) = CreateAclsResponse.wire version t :=
  app_congr (rfl) (again_structs (fun x => CreatableAclResult30.again version x {}) t.Results)
theorem CreateAclsResponse.lawful : Lawful CreateAclsResponse.type CreateAclsResponse.layout :=
  ⟨CreateAclsResponse.emits, CreateAclsResponse.sized, CreateAclsResponse.reads, CreateAclsResponse.tame, CreateAclsResponse.calm, CreateAclsResponse.canon, CreateAclsResponse.again⟩

end Kafka.Msg
