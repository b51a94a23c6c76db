import Verif.Message.StepLemmas
import Verif.Gen.Spec.DeleteGroups
/-!
Generated by tools/gen_messages.py: laws of the DeleteGroups messages.
-/
namespace Kafka.Msg

theorem DeleteGroupsRequest.emits (version : Int16) (t : DeleteGroupsRequest) :
    Emits (DeleteGroupsRequest.encode version t) (DeleteGroupsRequest.wire version t) :=
  emits_stringArray t.GroupsNames
theorem DeleteGroupsRequest.sized (version : Int16) (t : DeleteGroupsRequest) :
    Sized (DeleteGroupsRequest.size version t) (DeleteGroupsRequest.wire version t) :=
  Grows.sized (Grows.add (sized_stringArray t.GroupsNames))
theorem DeleteGroupsRequest.reads (version : Int16) (t : DeleteGroupsRequest) (h : t.Fits version) (t0 : DeleteGroupsRequest) :
    Reads (DeleteGroupsRequest.decode version t0) (DeleteGroupsRequest.wire version t) (t.seen version t0) :=
  (Step.field (set := fun (t : DeleteGroupsRequest) x => { t with GroupsNames := x }) (reads_stringArray h.GroupsNames) : Step _ _ _) t0
theorem DeleteGroupsRequest.tame (version : Int16) (t0 : DeleteGroupsRequest) : Tame (DeleteGroupsRequest.decode version t0) :=
  (TameStep.field tame_stringArray : TameStep _) t0
theorem DeleteGroupsRequest.calm (version : Int16) (t0 : DeleteGroupsRequest) :
    Calm (DeleteGroupsRequest.decode version t0) (fun _ => True) :=
  (CalmStep.field tame_stringArray calm_stringArray : CalmStep _).2 t0
theorem DeleteGroupsRequest.canon (version : Int16) (t : DeleteGroupsRequest) (_h : t.Canon version) :
    t.seen version {} = t :=
  DeleteGroupsRequest.ext rfl
theorem DeleteGroupsRequest.again (version : Int16) (t t0 : DeleteGroupsRequest) :
    DeleteGroupsRequest.wire version (t.seen version t0) = DeleteGroupsRequest.wire version t :=
  rfl
theorem DeleteGroupsRequest.lawful : Lawful DeleteGroupsRequest.type DeleteGroupsRequest.layout :=
  ⟨DeleteGroupsRequest.emits, DeleteGroupsRequest.sized, DeleteGroupsRequest.reads, DeleteGroupsRequest.tame, DeleteGroupsRequest.calm, DeleteGroupsRequest.canon, DeleteGroupsRequest.again⟩

theorem DeletableGroupResult42.emits (version : Int16) (t : DeletableGroupResult42) :
    Emits (DeletableGroupResult42.encode version t) (DeletableGroupResult42.wire version t) :=
  (emits_string t.GroupId)
    |>.andThen (emits_int16 t.ErrorCode)
theorem DeletableGroupResult42.sized (version : Int16) (t : DeletableGroupResult42) :
    Sized (DeletableGroupResult42.size version t) (DeletableGroupResult42.wire version t) :=
  Grows.sized ((Grows.add (sized_string t.GroupId))
    |>.andThen (Grows.add (sized_int16 t.ErrorCode)))
theorem DeletableGroupResult42.reads (version : Int16) (t : DeletableGroupResult42) (h : t.Fits version) (t0 : DeletableGroupResult42) :
    Reads (DeletableGroupResult42.decode version t0) (DeletableGroupResult42.wire version t) (t.seen version t0) :=
  ((Step.field (set := fun (t : DeletableGroupResult42) x => { t with GroupId := x }) (reads_string h.GroupId))
    |>.andThen (Step.field (set := fun (t : DeletableGroupResult42) x => { t with ErrorCode := x }) (reads_int16 t.ErrorCode)) : Step _ _ _) t0
theorem DeletableGroupResult42.tame (version : Int16) (t0 : DeletableGroupResult42) : Tame (DeletableGroupResult42.decode version t0) :=
  ((TameStep.field tame_string)
    |>.andThen (TameStep.field tame_int16) : TameStep _) t0
theorem DeletableGroupResult42.calm (version : Int16) (t0 : DeletableGroupResult42) :
    Calm (DeletableGroupResult42.decode version t0) (fun _ => True) :=
  ((CalmStep.field tame_string calm_string)
    |>.andThen (CalmStep.field tame_int16 calm_int16) : CalmStep _).2 t0
theorem DeletableGroupResult42.canon (version : Int16) (t : DeletableGroupResult42) (_h : t.Canon version) :
    t.seen version {} = t :=
  DeletableGroupResult42.ext rfl rfl
theorem DeletableGroupResult42.again (version : Int16) (t t0 : DeletableGroupResult42) :
    DeletableGroupResult42.wire version (t.seen version t0) = DeletableGroupResult42.wire version t :=
  app_congr (rfl) (rfl)
theorem DeletableGroupResult42.lawful : Lawful DeletableGroupResult42.type DeletableGroupResult42.layout :=
  ⟨DeletableGroupResult42.emits, DeletableGroupResult42.sized, DeletableGroupResult42.reads, DeletableGroupResult42.tame, DeletableGroupResult42.calm, DeletableGroupResult42.canon, DeletableGroupResult42.again⟩

theorem DeleteGroupsResponse.emits (version : Int16) (t : DeleteGroupsResponse) :
    Emits (DeleteGroupsResponse.encode version t) (DeleteGroupsResponse.wire version t) :=
  (emits_int32 t.ThrottleTimeMs)
    |>.andThen (emits_structs (DeletableGroupResult42.emits version) t.Results)
theorem DeleteGroupsResponse.sized (version : Int16) (t : DeleteGroupsResponse) :
    Sized (DeleteGroupsResponse.size version t) (DeleteGroupsResponse.wire version t) :=
  Grows.sized ((Grows.add (sized_int32 t.ThrottleTimeMs))
    |>.andThen (Grows.structs (DeletableGroupResult42.sized version) t.Results))
theorem DeleteGroupsResponse.reads (version : Int16) (t : DeleteGroupsResponse) (h : t.Fits version) (t0 : DeleteGroupsResponse) :
    Reads (DeleteGroupsResponse.decode version t0) (DeleteGroupsResponse.wire version t) (t.seen version t0) :=
  ((Step.field (set := fun (t : DeleteGroupsResponse) x => { t with ThrottleTimeMs := x }) (reads_int32 t.ThrottleTimeMs))
    |>.andThen (Step.structs (get := fun (t : DeleteGroupsResponse) => t.Results) (set := fun (t : DeleteGroupsResponse) x => { t with Results := x }) (fun x hx => DeletableGroupResult42.reads version x hx {}) h.Results) : Step _ _ _) t0
theorem DeleteGroupsResponse.tame (version : Int16) (t0 : DeleteGroupsResponse) : Tame (DeleteGroupsResponse.decode version t0) :=
  ((TameStep.field tame_int32)
    |>.andThen (TameStep.structs (DeletableGroupResult42.tame version {})) : TameStep _) t0
theorem DeleteGroupsResponse.calm (version : Int16) (t0 : DeleteGroupsResponse) :
    Calm (DeleteGroupsResponse.decode version t0) (fun _ => True) :=
  ((CalmStep.field tame_int32 calm_int32)
    |>.andThen (CalmStep.structs (DeletableGroupResult42.tame version {}) (DeletableGroupResult42.calm version {})) : CalmStep _).2 t0
theorem DeleteGroupsResponse.canon (version : Int16) (t : DeleteGroupsResponse) (h : t.Canon version) :
    t.seen version {} = t :=
  DeleteGroupsResponse.ext rfl (canon_structs (DeletableGroupResult42.canon version) h.Results)
theorem DeleteGroupsResponse.again (version : Int16) (t t0 : DeleteGroupsResponse) :
    DeleteGroupsResponse.wire version (t.seen version t0) = DeleteGroupsResponse.wire version t :=
  app_congr (rfl) (again_structs (fun x => DeletableGroupResult42.again version x {}) t.Results)
theorem DeleteGroupsResponse.lawful : Lawful DeleteGroupsResponse.type DeleteGroupsResponse.layout :=
  ⟨DeleteGroupsResponse.emits, DeleteGroupsResponse.sized, DeleteGroupsResponse.reads, DeleteGroupsResponse.tame, DeleteGroupsResponse.calm, DeleteGroupsResponse.canon, DeleteGroupsResponse.again⟩

end Kafka.Msg
