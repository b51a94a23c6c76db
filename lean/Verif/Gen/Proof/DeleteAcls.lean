import Verif.Message.StepLemmas
import Verif.Gen.Spec.DeleteAcls
/-!
Generated by tools/gen_messages.py: laws of the DeleteAcls messages.
-/
namespace Kafka.Msg

theorem DeleteAclsFilter31.emits (version : Int16) (t : DeleteAclsFilter31) :
    Emits (DeleteAclsFilter31.encode version t) (DeleteAclsFilter31.wire version t) :=
  (emits_int8 t.ResourceTypeFilter)
    |>.andThen (emits_string t.ResourceNameFilter)
    |>.andThen (Emits.onlyIf (emits_int8 t.PatternTypeFilter))
    |>.andThen (emits_string t.PrincipalFilter)
    |>.andThen (emits_string t.HostFilter)
    |>.andThen (emits_int8 t.Operation)
    |>.andThen (emits_int8 t.PermissionType)
theorem DeleteAclsFilter31.sized (version : Int16) (t : DeleteAclsFilter31) :
    Sized (DeleteAclsFilter31.size version t) (DeleteAclsFilter31.wire version t) :=
  Grows.sized ((Grows.add (sized_int8 t.ResourceTypeFilter))
    |>.andThen (Grows.add (sized_string t.ResourceNameFilter))
    |>.andThen (Grows.onlyIf (Grows.add (sized_int8 t.PatternTypeFilter)))
    |>.andThen (Grows.add (sized_string t.PrincipalFilter))
    |>.andThen (Grows.add (sized_string t.HostFilter))
    |>.andThen (Grows.add (sized_int8 t.Operation))
    |>.andThen (Grows.add (sized_int8 t.PermissionType)))
theorem DeleteAclsFilter31.reads (version : Int16) (t : DeleteAclsFilter31) (h : t.Fits version) (t0 : DeleteAclsFilter31) :
    Reads (DeleteAclsFilter31.decode version t0) (DeleteAclsFilter31.wire version t) (t.seen version t0) :=
  ((Step.field (set := fun (t : DeleteAclsFilter31) x => { t with ResourceTypeFilter := x }) (reads_int8 t.ResourceTypeFilter))
    |>.andThen (Step.field (set := fun (t : DeleteAclsFilter31) x => { t with ResourceNameFilter := x }) (reads_string h.ResourceNameFilter))
    |>.andThen (Step.optField (c := version ≥ 1) (set := fun (t : DeleteAclsFilter31) x => { t with PatternTypeFilter := x }) (·.PatternTypeFilter) (fun _ => rfl) fun _ => reads_int8 t.PatternTypeFilter)
    |>.andThen (Step.field (set := fun (t : DeleteAclsFilter31) x => { t with PrincipalFilter := x }) (reads_string h.PrincipalFilter))
    |>.andThen (Step.field (set := fun (t : DeleteAclsFilter31) x => { t with HostFilter := x }) (reads_string h.HostFilter))
    |>.andThen (Step.field (set := fun (t : DeleteAclsFilter31) x => { t with Operation := x }) (reads_int8 t.Operation))
    |>.andThen (Step.field (set := fun (t : DeleteAclsFilter31) x => { t with PermissionType := x }) (reads_int8 t.PermissionType)) : Step _ _ _) t0
theorem DeleteAclsFilter31.tame (version : Int16) (t0 : DeleteAclsFilter31) : Tame (DeleteAclsFilter31.decode version t0) :=
  ((TameStep.field tame_int8)
    |>.andThen (TameStep.field tame_string)
    |>.andThen (TameStep.onlyIf (TameStep.field tame_int8))
    |>.andThen (TameStep.field tame_string)
    |>.andThen (TameStep.field tame_string)
    |>.andThen (TameStep.field tame_int8)
    |>.andThen (TameStep.field tame_int8) : TameStep _) t0
theorem DeleteAclsFilter31.calm (version : Int16) (t0 : DeleteAclsFilter31) :
    Calm (DeleteAclsFilter31.decode version t0) (fun _ => True) :=
  ((CalmStep.field tame_int8 calm_int8)
    |>.andThen (CalmStep.field tame_string calm_string)
    |>.andThen (CalmStep.onlyIf (CalmStep.field tame_int8 calm_int8))
    |>.andThen (CalmStep.field tame_string calm_string)
    |>.andThen (CalmStep.field tame_string calm_string)
    |>.andThen (CalmStep.field tame_int8 calm_int8)
    |>.andThen (CalmStep.field tame_int8 calm_int8) : CalmStep _).2 t0
theorem DeleteAclsFilter31.canon (version : Int16) (t : DeleteAclsFilter31) (h : t.Canon version) :
    t.seen version {} = t :=
  DeleteAclsFilter31.ext rfl rfl (canon_opt h.PatternTypeFilter) rfl rfl rfl rfl
theorem DeleteAclsFilter31.again (version : Int16) (t t0 : DeleteAclsFilter31) :
    DeleteAclsFilter31.wire version (t.seen version t0) = DeleteAclsFilter31.wire version t :=
  app_congr (app_congr (app_congr (app_congr (app_congr (app_congr (rfl) (rfl)) (again_opt Wire.int8 t.PatternTypeFilter t0.PatternTypeFilter)) (rfl)) (rfl)) (rfl)) (rfl)
theorem DeleteAclsFilter31.lawful : Lawful DeleteAclsFilter31.type DeleteAclsFilter31.layout :=
  ⟨DeleteAclsFilter31.emits, DeleteAclsFilter31.sized, DeleteAclsFilter31.reads, DeleteAclsFilter31.tame, DeleteAclsFilter31.calm, DeleteAclsFilter31.canon, DeleteAclsFilter31.again⟩

theorem DeleteAclsRequest.emits (version : Int16) (t : DeleteAclsRequest) :
    Emits (DeleteAclsRequest.encode version t) (DeleteAclsRequest.wire version t) :=
  emits_structs (DeleteAclsFilter31.emits version) t.Filters
theorem DeleteAclsRequest.sized (version : Int16) (t : DeleteAclsRequest) :
    Sized (DeleteAclsRequest.size version t) (DeleteAclsRequest.wire version t) :=
  Grows.sized (Grows.structs (DeleteAclsFilter31.sized version) t.Filters)
theorem DeleteAclsRequest.reads (version : Int16) (t : DeleteAclsRequest) (h : t.Fits version) (t0 : DeleteAclsRequest) :
    Reads (DeleteAclsRequest.decode version t0) (DeleteAclsRequest.wire version t) (t.seen version t0) :=
  (Step.structs (get := fun (t : DeleteAclsRequest) => t.Filters) (set := fun (t : DeleteAclsRequest) x => { t with Filters := x }) (fun x hx => DeleteAclsFilter31.reads version x hx {}) h.Filters : Step _ _ _) t0
theorem DeleteAclsRequest.tame (version : Int16) (t0 : DeleteAclsRequest) : Tame (DeleteAclsRequest.decode version t0) :=
  (TameStep.structs (DeleteAclsFilter31.tame version {}) : TameStep _) t0
theorem DeleteAclsRequest.calm (version : Int16) (t0 : DeleteAclsRequest) :
    Calm (DeleteAclsRequest.decode version t0) (fun _ => True) :=
  (CalmStep.structs (DeleteAclsFilter31.tame version {}) (DeleteAclsFilter31.calm version {}) : CalmStep _).2 t0
theorem DeleteAclsRequest.canon (version : Int16) (t : DeleteAclsRequest) (h : t.Canon version) :
    t.seen version {} = t :=
  DeleteAclsRequest.ext (canon_structs (DeleteAclsFilter31.canon version) h.Filters)
theorem DeleteAclsRequest.again (version : Int16) (t t0 : DeleteAclsRequest) :
    DeleteAclsRequest.wire version (t.seen version t0) = DeleteAclsRequest.wire version t :=
  again_structs (fun x => DeleteAclsFilter31.again version x {}) t.Filters
theorem DeleteAclsRequest.lawful : Lawful DeleteAclsRequest.type DeleteAclsRequest.layout :=
  ⟨DeleteAclsRequest.emits, DeleteAclsRequest.sized, DeleteAclsRequest.reads, DeleteAclsRequest.tame, DeleteAclsRequest.calm, DeleteAclsRequest.canon, DeleteAclsRequest.again⟩

theorem DeleteAclsMatchingAcl31.emits (version : Int16) (t : DeleteAclsMatchingAcl31) :
    Emits (DeleteAclsMatchingAcl31.encode version t) (DeleteAclsMatchingAcl31.wire version t) :=
  (emits_int16 t.ErrorCode)
    |>.andThen (emits_string t.ErrorMessage)
    |>.andThen (emits_int8 t.ResourceType)
    |>.andThen (emits_string t.ResourceName)
    |>.andThen (Emits.onlyIf (emits_int8 t.PatternType))
    |>.andThen (emits_string t.Principal)
    |>.andThen (emits_string t.Host)
    |>.andThen (emits_int8 t.Operation)
    |>.andThen (emits_int8 t.PermissionType)
theorem DeleteAclsMatchingAcl31.sized (version : Int16) (t : DeleteAclsMatchingAcl31) :
    Sized (DeleteAclsMatchingAcl31.size version t) (DeleteAclsMatchingAcl31.wire version t) :=
  Grows.sized ((Grows.add (sized_int16 t.ErrorCode))
    |>.andThen (Grows.add (sized_string t.ErrorMessage))
    |>.andThen (Grows.add (sized_int8 t.ResourceType))
    |>.andThen (Grows.add (sized_string t.ResourceName))
    |>.andThen (Grows.onlyIf (Grows.add (sized_int8 t.PatternType)))
    |>.andThen (Grows.add (sized_string t.Principal))
    |>.andThen (Grows.add (sized_string t.Host))
    |>.andThen (Grows.add (sized_int8 t.Operation))
    |>.andThen (Grows.add (sized_int8 t.PermissionType)))
theorem DeleteAclsMatchingAcl31.reads (version : Int16) (t : DeleteAclsMatchingAcl31) (h : t.Fits version) (t0 : DeleteAclsMatchingAcl31) :
    Reads (DeleteAclsMatchingAcl31.decode version t0) (DeleteAclsMatchingAcl31.wire version t) (t.seen version t0) :=
  ((Step.field (set := fun (t : DeleteAclsMatchingAcl31) x => { t with ErrorCode := x }) (reads_int16 t.ErrorCode))
    |>.andThen (Step.field (set := fun (t : DeleteAclsMatchingAcl31) x => { t with ErrorMessage := x }) (reads_string h.ErrorMessage))
    |>.andThen (Step.field (set := fun (t : DeleteAclsMatchingAcl31) x => { t with ResourceType := x }) (reads_int8 t.ResourceType))
    |>.andThen (Step.field (set := fun (t : DeleteAclsMatchingAcl31) x => { t with ResourceName := x }) (reads_string h.ResourceName))
    |>.andThen (Step.optField (c := version ≥ 1) (set := fun (t : DeleteAclsMatchingAcl31) x => { t with PatternType := x }) (·.PatternType) (fun _ => rfl) fun _ => reads_int8 t.PatternType)
    |>.andThen (Step.field (set := fun (t : DeleteAclsMatchingAcl31) x => { t with Principal := x }) (reads_string h.Principal))
    |>.andThen (Step.field (set := fun (t : DeleteAclsMatchingAcl31) x => { t with Host := x }) (reads_string h.Host))
    |>.andThen (Step.field (set := fun (t : DeleteAclsMatchingAcl31) x => { t with Operation := x }) (reads_int8 t.Operation))
    |>.andThen (Step.field (set := fun (t : DeleteAclsMatchingAcl31) x => { t with PermissionType := x }) (reads_int8 t.PermissionType)) : Step _ _ _) t0
theorem DeleteAclsMatchingAcl31.tame (version : Int16) (t0 : DeleteAclsMatchingAcl31) : Tame (DeleteAclsMatchingAcl31.decode version t0) :=
  ((TameStep.field tame_int16)
    |>.andThen (TameStep.field tame_string)
    |>.andThen (TameStep.field tame_int8)
    |>.andThen (TameStep.field tame_string)
    |>.andThen (TameStep.onlyIf (TameStep.field tame_int8))
    |>.andThen (TameStep.field tame_string)
    |>.andThen (TameStep.field tame_string)
    |>.andThen (TameStep.field tame_int8)
    |>.andThen (TameStep.field tame_int8) : TameStep _) t0
theorem DeleteAclsMatchingAcl31.calm (version : Int16) (t0 : DeleteAclsMatchingAcl31) :
    Calm (DeleteAclsMatchingAcl31.decode version t0) (fun _ => True) :=
  ((CalmStep.field tame_int16 calm_int16)
    |>.andThen (CalmStep.field tame_string calm_string)
    |>.andThen (CalmStep.field tame_int8 calm_int8)
    |>.andThen (CalmStep.field tame_string calm_string)
    |>.andThen (CalmStep.onlyIf (CalmStep.field tame_int8 calm_int8))
    |>.andThen (CalmStep.field tame_string calm_string)
    |>.andThen (CalmStep.field tame_string calm_string)
    |>.andThen (CalmStep.field tame_int8 calm_int8)
    |>.andThen (CalmStep.field tame_int8 calm_int8) : CalmStep _).2 t0
theorem DeleteAclsMatchingAcl31.canon (version : Int16) (t : DeleteAclsMatchingAcl31) (h : t.Canon version) :
    t.seen version {} = t :=
  DeleteAclsMatchingAcl31.ext rfl rfl rfl rfl (canon_opt h.PatternType) rfl rfl rfl rfl
theorem DeleteAclsMatchingAcl31.again (version : Int16) (t t0 : DeleteAclsMatchingAcl31) :
    DeleteAclsMatchingAcl31.wire version (t.seen version t0) = DeleteAclsMatchingAcl31.wire version t :=
  app_congr (app_congr (app_congr (app_congr (app_congr (app_congr (app_congr (app_congr (rfl) (rfl)) (rfl)) (rfl)) (again_opt Wire.int8 t.PatternType t0.PatternType)) (rfl)) (rfl)) (rfl)) (rfl)
theorem DeleteAclsMatchingAcl31.lawful : Lawful DeleteAclsMatchingAcl31.type DeleteAclsMatchingAcl31.layout :=
  ⟨DeleteAclsMatchingAcl31.emits, DeleteAclsMatchingAcl31.sized, DeleteAclsMatchingAcl31.reads, DeleteAclsMatchingAcl31.tame, DeleteAclsMatchingAcl31.calm, DeleteAclsMatchingAcl31.canon, DeleteAclsMatchingAcl31.again⟩

theorem DeleteAclsFilterResult31.emits (version : Int16) (t : DeleteAclsFilterResult31) :
    Emits (DeleteAclsFilterResult31.encode version t) (DeleteAclsFilterResult31.wire version t) :=
  (emits_int16 t.ErrorCode)
    |>.andThen (emits_string t.ErrorMessage)
    |>.andThen (emits_structs (DeleteAclsMatchingAcl31.emits version) t.MatchingAcls)
theorem DeleteAclsFilterResult31.sized (version : Int16) (t : DeleteAclsFilterResult31) :
    Sized (DeleteAclsFilterResult31.size version t) (DeleteAclsFilterResult31.wire version t) :=
  Grows.sized ((Grows.add (sized_int16 t.ErrorCode))
    |>.andThen (Grows.add (sized_string t.ErrorMessage))
    |>.andThen (Grows.structs (DeleteAclsMatchingAcl31.sized version) t.MatchingAcls))
theorem DeleteAclsFilterResult31.reads (version : Int16) (t : DeleteAclsFilterResult31) (h : t.Fits version) (t0 : DeleteAclsFilterResult31) :
    Reads (DeleteAclsFilterResult31.decode version t0) (DeleteAclsFilterResult31.wire version t) (t.seen version t0) :=
  ((Step.field (set := fun (t : DeleteAclsFilterResult31) x => { t with ErrorCode := x }) (reads_int16 t.ErrorCode))
    |>.andThen (Step.field (set := fun (t : DeleteAclsFilterResult31) x => { t with ErrorMessage := x }) (reads_string h.ErrorMessage))
    |>.andThen (Step.structs (get := fun (t : DeleteAclsFilterResult31) => t.MatchingAcls) (set := fun (t : DeleteAclsFilterResult31) x => { t with MatchingAcls := x }) (fun x hx => DeleteAclsMatchingAcl31.reads version x hx {}) h.MatchingAcls) : Step _ _ _) t0
theorem DeleteAclsFilterResult31.tame (version : Int16) (t0 : DeleteAclsFilterResult31) : Tame (DeleteAclsFilterResult31.decode version t0) :=
  ((TameStep.field tame_int16)
    |>.andThen (TameStep.field tame_string)
    |>.andThen (TameStep.structs (DeleteAclsMatchingAcl31.tame version {})) : TameStep _) t0
theorem DeleteAclsFilterResult31.calm (version : Int16) (t0 : DeleteAclsFilterResult31) :
    Calm (DeleteAclsFilterResult31.decode version t0) (fun _ => True) :=
  ((CalmStep.field tame_int16 calm_int16)
    |>.andThen (CalmStep.field tame_string calm_string)
    |>.andThen (CalmStep.structs (DeleteAclsMatchingAcl31.tame version {}) (DeleteAclsMatchingAcl31.calm version {})) : CalmStep _).2 t0
theorem DeleteAclsFilterResult31.canon (version : Int16) (t : DeleteAclsFilterResult31) (h : t.Canon version) :
    t.seen version {} = t :=
  DeleteAclsFilterResult31.ext rfl rfl (canon_structs (DeleteAclsMatchingAcl31.canon version) h.MatchingAcls)
theorem DeleteAclsFilterResult31.again (version : Int16) (t t0 : DeleteAclsFilterResult31) :
    DeleteAclsFilterResult31.wire version (t.seen version t0) = DeleteAclsFilterResult31.wire version t :=
  app_congr (app_congr (rfl) (rfl)) (again_structs (fun x => DeleteAclsMatchingAcl31.again version x {}) t.MatchingAcls)
theorem DeleteAclsFilterResult31.lawful : Lawful DeleteAclsFilterResult31.type DeleteAclsFilterResult31.layout :=
  ⟨DeleteAclsFilterResult31.emits, DeleteAclsFilterResult31.sized, DeleteAclsFilterResult31.reads, DeleteAclsFilterResult31.tame, DeleteAclsFilterResult31.calm, DeleteAclsFilterResult31.canon, DeleteAclsFilterResult31.again⟩

theorem DeleteAclsResponse.emits (version : Int16) (t : DeleteAclsResponse) :
    Emits (DeleteAclsResponse.encode version t) (DeleteAclsResponse.wire version t) :=
  (emits_int32 t.ThrottleTimeMs)
    |>.andThen (emits_structs (DeleteAclsFilterResult31.emits version) t.FilterResults)
theorem DeleteAclsResponse.sized (version : Int16) (t : DeleteAclsResponse) :
    Sized (DeleteAclsResponse.size version t) (DeleteAclsResponse.wire version t) :=
  Grows.sized ((Grows.add (sized_int32 t.ThrottleTimeMs))
    |>.andThen (Grows.structs (DeleteAclsFilterResult31.sized version) t.FilterResults))
theorem DeleteAclsResponse.reads (version : Int16) (t : DeleteAclsResponse) (h : t.Fits version) (t0 : DeleteAclsResponse) :
    Reads (DeleteAclsResponse.decode version t0) (DeleteAclsResponse.wire version t) (t.seen version t0) :=
  ((Step.field (set := fun (t : DeleteAclsResponse) x => { t with ThrottleTimeMs := x }) (reads_int32 t.ThrottleTimeMs))
    |>.andThen (Step.structs (get := fun (t : DeleteAclsResponse) => t.FilterResults) (set := fun (t : DeleteAclsResponse) x => { t with FilterResults := x }) (fun x hx => DeleteAclsFilterResult31.reads version x hx {}) h.FilterResults) : Step _ _ _) t0
theorem DeleteAclsResponse.tame (version : Int16) (t0 : DeleteAclsResponse) : Tame (DeleteAclsResponse.decode version t0) :=
  ((TameStep.field tame_int32)
    |>.andThen (TameStep.structs (DeleteAclsFilterResult31.tame version {})) : TameStep _) t0
theorem DeleteAclsResponse.calm (version : Int16) (t0 : DeleteAclsResponse) :
    Calm (DeleteAclsResponse.decode version t0) (fun _ => True) :=
  ((CalmStep.field tame_int32 calm_int32)
    |>.andThen (CalmStep.structs (DeleteAclsFilterResult31.tame version {}) (DeleteAclsFilterResult31.calm version {})) : CalmStep _).2 t0
theorem DeleteAclsResponse.canon (version : Int16) (t : DeleteAclsResponse) (h : t.Canon version) :
    t.seen version {} = t :=
  DeleteAclsResponse.ext rfl (canon_structs (DeleteAclsFilterResult31.canon version) h.FilterResults)
theorem DeleteAclsResponse.again (version : Int16) (t t0 : DeleteAclsResponse) :
    DeleteAclsResponse.wire version (t.seen version t0) = DeleteAclsResponse.wire version t :=
  app_congr (rfl) (again_structs (fun x => DeleteAclsFilterResult31.again version x {}) t.FilterResults)
theorem DeleteAclsResponse.lawful : Lawful DeleteAclsResponse.type DeleteAclsResponse.layout :=
  ⟨DeleteAclsResponse.emits, DeleteAclsResponse.sized, DeleteAclsResponse.reads, DeleteAclsResponse.tame, DeleteAclsResponse.calm, DeleteAclsResponse.canon, DeleteAclsResponse.again⟩

end Kafka.Msg
