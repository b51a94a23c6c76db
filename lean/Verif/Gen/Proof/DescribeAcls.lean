import Verif.Message.StepLemmas
import Verif.Gen.Spec.DescribeAcls
/-!
Generated by tools/gen_messages.py: laws of the DescribeAcls messages.
-/
namespace Kafka.Msg

theorem DescribeAclsRequest.emits (version : Int16) (t : DescribeAclsRequest) :
    Emits (DescribeAclsRequest.encode version t) (DescribeAclsRequest.wire version t) :=
  (emits_int8 t.ResourceType)
    |>.andThen (emits_string t.ResourceNameFilter)
    |>.andThen (Emits.onlyIf (emits_int8 t.ResourcePatternType))
    |>.andThen (emits_string t.PrincipalFilter)
    |>.andThen (emits_string t.HostFilter)
    |>.andThen (emits_int8 t.Operation)
    |>.andThen (emits_int8 t.PermissionType)
theorem DescribeAclsRequest.sized (version : Int16) (t : DescribeAclsRequest) :
    Sized (DescribeAclsRequest.size version t) (DescribeAclsRequest.wire version t) :=
  Grows.sized ((Grows.add (sized_int8 t.ResourceType))
    |>.andThen (Grows.add (sized_string t.ResourceNameFilter))
    |>.andThen (Grows.onlyIf (Grows.add (sized_int8 t.ResourcePatternType)))
    |>.andThen (Grows.add (sized_string t.PrincipalFilter))
    |>.andThen (Grows.add (sized_string t.HostFilter))
    |>.andThen (Grows.add (sized_int8 t.Operation))
    |>.andThen (Grows.add (sized_int8 t.PermissionType)))
theorem DescribeAclsRequest.reads (version : Int16) (t : DescribeAclsRequest) (h : t.Fits version) (t0 : DescribeAclsRequest) :
    Reads (DescribeAclsRequest.decode version t0) (DescribeAclsRequest.wire version t) (t.seen version t0) :=
  ((Step.field (set := fun (t : DescribeAclsRequest) x => { t with ResourceType := x }) (reads_int8 t.ResourceType))
    |>.andThen (Step.field (set := fun (t : DescribeAclsRequest) x => { t with ResourceNameFilter := x }) (reads_string h.ResourceNameFilter))
    |>.andThen (Step.optField (c := version ≥ 1) (set := fun (t : DescribeAclsRequest) x => { t with ResourcePatternType := x }) (·.ResourcePatternType) (fun _ => rfl) fun _ => reads_int8 t.ResourcePatternType)
    |>.andThen (Step.field (set := fun (t : DescribeAclsRequest) x => { t with PrincipalFilter := x }) (reads_string h.PrincipalFilter))
    |>.andThen (Step.field (set := fun (t : DescribeAclsRequest) x => { t with HostFilter := x }) (reads_string h.HostFilter))
    |>.andThen (Step.field (set := fun (t : DescribeAclsRequest) x => { t with Operation := x }) (reads_int8 t.Operation))
    |>.andThen (Step.field (set := fun (t : DescribeAclsRequest) x => { t with PermissionType := x }) (reads_int8 t.PermissionType)) : Step _ _ _) t0
theorem DescribeAclsRequest.tame (version : Int16) (t0 : DescribeAclsRequest) : Tame (DescribeAclsRequest.decode version t0) :=
  ((TameStep.field tame_int8)
    |>.andThen (TameStep.field tame_string)
    |>.andThen (TameStep.onlyIf (TameStep.field tame_int8))
    |>.andThen (TameStep.field tame_string)
    |>.andThen (TameStep.field tame_string)
    |>.andThen (TameStep.field tame_int8)
    |>.andThen (TameStep.field tame_int8) : TameStep _) t0
theorem DescribeAclsRequest.calm (version : Int16) (t0 : DescribeAclsRequest) :
    Calm (DescribeAclsRequest.decode version t0) (fun _ => True) :=
  ((CalmStep.field tame_int8 calm_int8)
    |>.andThen (CalmStep.field tame_string calm_string)
    |>.andThen (CalmStep.onlyIf (CalmStep.field tame_int8 calm_int8))
    |>.andThen (CalmStep.field tame_string calm_string)
    |>.andThen (CalmStep.field tame_string calm_string)
    |>.andThen (CalmStep.field tame_int8 calm_int8)
    |>.andThen (CalmStep.field tame_int8 calm_int8) : CalmStep _).2 t0
theorem DescribeAclsRequest.canon (version : Int16) (t : DescribeAclsRequest) (h : t.Canon version) :
    t.seen version {} = t :=
  DescribeAclsRequest.ext rfl rfl (canon_opt h.ResourcePatternType) rfl rfl rfl rfl
theorem DescribeAclsRequest.again (version : Int16) (t t0 : DescribeAclsRequest) :
    DescribeAclsRequest.wire version (t.seen version t0) = DescribeAclsRequest.wire version t :=
  app_congr (app_congr (app_congr (app_congr (app_congr (app_congr (rfl) (rfl)) (again_opt Wire.int8 t.ResourcePatternType t0.ResourcePatternType)) (rfl)) (rfl)) (rfl)) (rfl)
theorem DescribeAclsRequest.lawful : Lawful DescribeAclsRequest.type DescribeAclsRequest.layout :=
  ⟨DescribeAclsRequest.emits, DescribeAclsRequest.sized, DescribeAclsRequest.reads, DescribeAclsRequest.tame, DescribeAclsRequest.calm, DescribeAclsRequest.canon, DescribeAclsRequest.again⟩

theorem AclDescription29.emits (version : Int16) (t : AclDescription29) :
    Emits (AclDescription29.encode version t) (AclDescription29.wire version t) :=
  (emits_string t.Principal)
    |>.andThen (emits_string t.Host)
    |>.andThen (emits_int8 t.Operation)
    |>.andThen (emits_int8 t.PermissionType)
theorem AclDescription29.sized (version : Int16) (t : AclDescription29) :
    Sized (AclDescription29.size version t) (AclDescription29.wire version t) :=
  Grows.sized ((Grows.add (sized_string t.Principal))
    |>.andThen (Grows.add (sized_string t.Host))
    |>.andThen (Grows.add (sized_int8 t.Operation))
    |>.andThen (Grows.add (sized_int8 t.PermissionType)))
theorem AclDescription29.reads (version : Int16) (t : AclDescription29) (h : t.Fits version) (t0 : AclDescription29) :
    Reads (AclDescription29.decode version t0) (AclDescription29.wire version t) (t.seen version t0) :=
  ((Step.field (set := fun (t : AclDescription29) x => { t with Principal := x }) (reads_string h.Principal))
    |>.andThen (Step.field (set := fun (t : AclDescription29) x => { t with Host := x }) (reads_string h.Host))
    |>.andThen (Step.field (set := fun (t : AclDescription29) x => { t with Operation := x }) (reads_int8 t.Operation))
    |>.andThen (Step.field (set := fun (t : AclDescription29) x => { t with PermissionType := x }) (reads_int8 t.PermissionType)) : Step _ _ _) t0
theorem AclDescription29.tame (version : Int16) (t0 : AclDescription29) : Tame (AclDescription29.decode version t0) :=
  ((TameStep.field tame_string)
    |>.andThen (TameStep.field tame_string)
    |>.andThen (TameStep.field tame_int8)
    |>.andThen (TameStep.field tame_int8) : TameStep _) t0
theorem AclDescription29.calm (version : Int16) (t0 : AclDescription29) :
    Calm (AclDescription29.decode version t0) (fun _ => True) :=
  ((CalmStep.field tame_string calm_string)
    |>.andThen (CalmStep.field tame_string calm_string)
    |>.andThen (CalmStep.field tame_int8 calm_int8)
    |>.andThen (CalmStep.field tame_int8 calm_int8) : CalmStep _).2 t0
theorem AclDescription29.canon (version : Int16) (t : AclDescription29) (_h : t.Canon version) :
    t.seen version {} = t :=
  AclDescription29.ext rfl rfl rfl rfl
theorem AclDescription29.again (version : Int16) (t t0 : AclDescription29) :
    AclDescription29.wire version (t.seen version t0) = AclDescription29.wire version t :=
  app_congr (app_congr (app_congr (rfl) (rfl)) (rfl)) (rfl)
theorem AclDescription29.lawful : Lawful AclDescription29.type AclDescription29.layout :=
  ⟨AclDescription29.emits, AclDescription29.sized, AclDescription29.reads, AclDescription29.tame, AclDescription29.calm, AclDescription29.canon, AclDescription29.again⟩

theorem DescribeAclsResource29.emits (version : Int16) (t : DescribeAclsResource29) :
    Emits (DescribeAclsResource29.encode version t) (DescribeAclsResource29.wire version t) :=
  (emits_int8 t.«Type»)
    |>.andThen (emits_string t.Name)
    |>.andThen (Emits.onlyIf (emits_int8 t.PatternType))
    |>.andThen (emits_structs (AclDescription29.emits version) t.Acls)
theorem DescribeAclsResource29.sized (version : Int16) (t : DescribeAclsResource29) :
    Sized (DescribeAclsResource29.size version t) (DescribeAclsResource29.wire version t) :=
  Grows.sized ((Grows.add (sized_int8 t.«Type»))
    |>.andThen (Grows.add (sized_string t.Name))
    |>.andThen (Grows.onlyIf (Grows.add (sized_int8 t.PatternType)))
    |>.andThen (Grows.structs (AclDescription29.sized version) t.Acls))
theorem DescribeAclsResource29.reads (version : Int16) (t : DescribeAclsResource29) (h : t.Fits version) (t0 : DescribeAclsResource29) :
    Reads (DescribeAclsResource29.decode version t0) (DescribeAclsResource29.wire version t) (t.seen version t0) :=
  ((Step.field (set := fun (t : DescribeAclsResource29) x => { t with «Type» := x }) (reads_int8 t.«Type»))
    |>.andThen (Step.field (set := fun (t : DescribeAclsResource29) x => { t with Name := x }) (reads_string h.Name))
    |>.andThen (Step.optField (c := version ≥ 1) (set := fun (t : DescribeAclsResource29) x => { t with PatternType := x }) (·.PatternType) (fun _ => rfl) fun _ => reads_int8 t.PatternType)
    |>.andThen (Step.structs (get := fun (t : DescribeAclsResource29) => t.Acls) (set := fun (t : DescribeAclsResource29) x => { t with Acls := x }) (fun x hx => AclDescription29.reads version x hx {}) h.Acls) : Step _ _ _) t0
theorem DescribeAclsResource29.tame (version : Int16) (t0 : DescribeAclsResource29) : Tame (DescribeAclsResource29.decode version t0) :=
  ((TameStep.field tame_int8)
    |>.andThen (TameStep.field tame_string)
    |>.andThen (TameStep.onlyIf (TameStep.field tame_int8))
    |>.andThen (TameStep.structs (AclDescription29.tame version {})) : TameStep _) t0
theorem DescribeAclsResource29.calm (version : Int16) (t0 : DescribeAclsResource29) :
    Calm (DescribeAclsResource29.decode version t0) (fun _ => True) :=
  ((CalmStep.field tame_int8 calm_int8)
    |>.andThen (CalmStep.field tame_string calm_string)
    |>.andThen (CalmStep.onlyIf (CalmStep.field tame_int8 calm_int8))
    |>.andThen (CalmStep.structs (AclDescription29.tame version {}) (AclDescription29.calm version {})) : CalmStep _).2 t0
theorem DescribeAclsResource29.canon (version : Int16) (t : DescribeAclsResource29) (h : t.Canon version) :
    t.seen version {} = t :=
  DescribeAclsResource29.ext rfl rfl (canon_opt h.PatternType) (canon_structs (AclDescription29.canon version) h.Acls)
theorem DescribeAclsResource29.again (version : Int16) (t t0 : DescribeAclsResource29) :
    DescribeAclsResource29.wire version (t.seen version t0) = DescribeAclsResource29.wire version t :=
  app_congr (app_congr (app_congr (rfl) (rfl)) (again_opt Wire.int8 t.PatternType t0.PatternType)) (again_structs (fun x => AclDescription29.again version x {}) t.Acls)
theorem DescribeAclsResource29.lawful : Lawful DescribeAclsResource29.type DescribeAclsResource29.layout :=
  ⟨DescribeAclsResource29.emits, DescribeAclsResource29.sized, DescribeAclsResource29.reads, DescribeAclsResource29.tame, DescribeAclsResource29.calm, DescribeAclsResource29.canon, DescribeAclsResource29.again⟩

theorem DescribeAclsResponse.emits (version : Int16) (t : DescribeAclsResponse) :
    Emits (DescribeAclsResponse.encode version t) (DescribeAclsResponse.wire version t) :=
  (emits_int32 t.ThrottleTimeMs)
    |>.andThen (emits_int16 t.ErrorCode)
    |>.andThen (emits_string t.ErrorMessage)
    |>.andThen (emits_structs (DescribeAclsResource29.emits version) t.Resources)
theorem DescribeAclsResponse.sized (version : Int16) (t : DescribeAclsResponse) :
    Sized (DescribeAclsResponse.size version t) (DescribeAclsResponse.wire version t) :=
  Grows.sized ((Grows.add (sized_int32 t.ThrottleTimeMs))
    |>.andThen (Grows.add (sized_int16 t.ErrorCode))
    |>.andThen (Grows.add (sized_string t.ErrorMessage))
    |>.andThen (Grows.structs (DescribeAclsResource29.sized version) t.Resources))
theorem DescribeAclsResponse.reads (version : Int16) (t : DescribeAclsResponse) (h : t.Fits version) (t0 : DescribeAclsResponse) :
    Reads (DescribeAclsResponse.decode version t0) (DescribeAclsResponse.wire version t) (t.seen version t0) :=
  ((Step.field (set := fun (t : DescribeAclsResponse) x => { t with ThrottleTimeMs := x }) (reads_int32 t.ThrottleTimeMs))
    |>.andThen (Step.field (set := fun (t : DescribeAclsResponse) x => { t with ErrorCode := x }) (reads_int16 t.ErrorCode))
    |>.andThen (Step.field (set := fun (t : DescribeAclsResponse) x => { t with ErrorMessage := x }) (reads_string h.ErrorMessage))
    |>.andThen (Step.structs (get := fun (t : DescribeAclsResponse) => t.Resources) (set := fun (t : DescribeAclsResponse) x => { t with Resources := x }) (fun x hx => DescribeAclsResource29.reads version x hx {}) h.Resources) : Step _ _ _) t0
theorem DescribeAclsResponse.tame (version : Int16) (t0 : DescribeAclsResponse) : Tame (DescribeAclsResponse.decode version t0) :=
  ((TameStep.field tame_int32)
    |>.andThen (TameStep.field tame_int16)
    |>.andThen (TameStep.field tame_string)
    |>.andThen (TameStep.structs (DescribeAclsResource29.tame version {})) : TameStep _) t0
theorem DescribeAclsResponse.calm (version : Int16) (t0 : DescribeAclsResponse) :
    Calm (DescribeAclsResponse.decode version t0) (fun _ => True) :=
  ((CalmStep.field tame_int32 calm_int32)
    |>.andThen (CalmStep.field tame_int16 calm_int16)
    |>.andThen (CalmStep.field tame_string calm_string)
    |>.andThen (CalmStep.structs (DescribeAclsResource29.tame version {}) (DescribeAclsResource29.calm version {})) : CalmStep _).2 t0
theorem DescribeAclsResponse.canon (version : Int16) (t : DescribeAclsResponse) (h : t.Canon version) :
    t.seen version {} = t :=
  DescribeAclsResponse.ext rfl rfl rfl (canon_structs (DescribeAclsResource29.canon version) h.Resources)
theorem DescribeAclsResponse.again (version : Int16) (t t0 : DescribeAclsResponse) :
    DescribeAclsResponse.wire version (t.seen version t0) = DescribeAclsResponse.wire version t :=
  app_congr (app_congr (app_congr (rfl) (rfl)) (rfl)) (again_structs (fun x => DescribeAclsResource29.again version x {}) t.Resources)
theorem DescribeAclsResponse.lawful : Lawful DescribeAclsResponse.type DescribeAclsResponse.layout :=
  ⟨DescribeAclsResponse.emits, DescribeAclsResponse.sized, DescribeAclsResponse.reads, DescribeAclsResponse.tame, DescribeAclsResponse.calm, DescribeAclsResponse.canon, DescribeAclsResponse.again⟩

end Kafka.Msg
