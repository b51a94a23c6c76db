import Verif.Message.StepLemmas
import Verif.Gen.Spec.ListGroups
/-!
Generated by tools/gen_messages.py: laws of the ListGroups messages.
-/
namespace Kafka.Msg

theorem ListGroupsRequest.emits (version : Int16) (t : ListGroupsRequest) :
    Emits (ListGroupsRequest.encode version t) (ListGroupsRequest.wire version t) :=
  Emits.nop
theorem ListGroupsRequest.sized (version : Int16) (t : ListGroupsRequest) :
    Sized (ListGroupsRequest.size version t) (ListGroupsRequest.wire version t) :=
  Grows.sized (Grows.nop)
theorem ListGroupsRequest.reads (version : Int16) (t : ListGroupsRequest) (_h : t.Fits version) (t0 : ListGroupsRequest) :
    Reads (ListGroupsRequest.decode version t0) (ListGroupsRequest.wire version t) (t.seen version t0) :=
  Step.nop t0
theorem ListGroupsRequest.tame (version : Int16) (t0 : ListGroupsRequest) : Tame (ListGroupsRequest.decode version t0) :=
  (TameStep.nop : TameStep _) t0
theorem ListGroupsRequest.calm (version : Int16) (t0 : ListGroupsRequest) :
    Calm (ListGroupsRequest.decode version t0) (fun _ => True) :=
  (CalmStep.nop : CalmStep _).2 t0
theorem ListGroupsRequest.canon (version : Int16) (t : ListGroupsRequest) (_h : t.Canon version) :
    t.seen version {} = t :=
  rfl
theorem ListGroupsRequest.again (version : Int16) (t t0 : ListGroupsRequest) :
    ListGroupsRequest.wire version (t.seen version t0) = ListGroupsRequest.wire version t :=
  rfl
theorem ListGroupsRequest.lawful : Lawful ListGroupsRequest.type ListGroupsRequest.layout :=
  ⟨ListGroupsRequest.emits, ListGroupsRequest.sized, ListGroupsRequest.reads, ListGroupsRequest.tame, ListGroupsRequest.calm, ListGroupsRequest.canon, ListGroupsRequest.again⟩

theorem ListedGroup16.emits (version : Int16) (t : ListedGroup16) :
    Emits (ListedGroup16.encode version t) (ListedGroup16.wire version t) :=
  (emits_string t.GroupId)
    |>.andThen (emits_string t.ProtocolType)
theorem ListedGroup16.sized (version : Int16) (t : ListedGroup16) :
    Sized (ListedGroup16.size version t) (ListedGroup16.wire version t) :=
  Grows.sized ((Grows.add (sized_string t.GroupId))
    |>.andThen (Grows.add (sized_string t.ProtocolType)))
theorem ListedGroup16.reads (version : Int16) (t : ListedGroup16) (h : t.Fits version) (t0 : ListedGroup16) :
    Reads (ListedGroup16.decode version t0) (ListedGroup16.wire version t) (t.seen version t0) :=
  ((Step.field (set := fun (t : ListedGroup16) x => { t with GroupId := x }) (reads_string h.GroupId))
    |>.andThen (Step.field (set := fun (t : ListedGroup16) x => { t with ProtocolType := x }) (reads_string h.ProtocolType)) : Step _ _ _) t0
theorem ListedGroup16.tame (version : Int16) (t0 : ListedGroup16) : Tame (ListedGroup16.decode version t0) :=
  ((TameStep.field tame_string)
    |>.andThen (TameStep.field tame_string) : TameStep _) t0
theorem ListedGroup16.calm (version : Int16) (t0 : ListedGroup16) :
    Calm (ListedGroup16.decode version t0) (fun _ => True) :=
  ((CalmStep.field tame_string calm_string)
    |>.andThen (CalmStep.field tame_string calm_string) : CalmStep _).2 t0
theorem ListedGroup16.canon (version : Int16) (t : ListedGroup16) (_h : t.Canon version) :
    t.seen version {} = t :=
  ListedGroup16.ext rfl rfl
theorem ListedGroup16.again (version : Int16) (t t0 : ListedGroup16) :
    ListedGroup16.wire version (t.seen version t0) = ListedGroup16.wire version t :=
  app_congr (rfl) (rfl)
theorem ListedGroup16.lawful : Lawful ListedGroup16.type ListedGroup16.layout :=
  ⟨ListedGroup16.emits, ListedGroup16.sized, ListedGroup16.reads, ListedGroup16.tame, ListedGroup16.calm, ListedGroup16.canon, ListedGroup16.again⟩

theorem ListGroupsResponse.emits (version : Int16) (t : ListGroupsResponse) :
    Emits (ListGroupsResponse.encode version t) (ListGroupsResponse.wire version t) :=
  (Emits.onlyIf (emits_int32 t.ThrottleTimeMs))
    |>.andThen (emits_int16 t.ErrorCode)
    |>.andThen (emits_structs (ListedGroup16.emits version) t.Groups)
theorem ListGroupsResponse.sized (version : Int16) (t : ListGroupsResponse) :
    Sized (ListGroupsResponse.size version t) (ListGroupsResponse.wire version t) :=
  Grows.sized ((Grows.onlyIf (Grows.add (sized_int32 t.ThrottleTimeMs)))
    |>.andThen (Grows.add (sized_int16 t.ErrorCode))
    |>.andThen (Grows.structs (ListedGroup16.sized version) t.Groups))
theorem ListGroupsResponse.reads (version : Int16) (t : ListGroupsResponse) (h : t.Fits version) (t0 : ListGroupsResponse) :
    Reads (ListGroupsResponse.decode version t0) (ListGroupsResponse.wire version t) (t.seen version t0) :=
  ((Step.optField (c := version ≥ 1) (set := fun (t : ListGroupsResponse) x => { t with ThrottleTimeMs := x }) (·.ThrottleTimeMs) (fun _ => rfl) fun _ => reads_int32 t.ThrottleTimeMs)
    |>.andThen (Step.field (set := fun (t : ListGroupsResponse) x => { t with ErrorCode := x }) (reads_int16 t.ErrorCode))
    |>.andThen (Step.structs (get := fun (t : ListGroupsResponse) => t.Groups) (set := fun (t : ListGroupsResponse) x => { t with Groups := x }) (fun x hx => ListedGroup16.reads version x hx {}) h.Groups) : Step _ _ _) t0
theorem ListGroupsResponse.tame (version : Int16) (t0 : ListGroupsResponse) : Tame (ListGroupsResponse.decode version t0) :=
  ((TameStep.onlyIf (TameStep.field tame_int32))
    |>.andThen (TameStep.field tame_int16)
    |>.andThen (TameStep.structs (ListedGroup16.tame version {})) : TameStep _) t0
theorem ListGroupsResponse.calm (version : Int16) (t0 : ListGroupsResponse) :
    Calm (ListGroupsResponse.decode version t0) (fun _ => True) :=
  ((CalmStep.onlyIf (CalmStep.field tame_int32 calm_int32))
    |>.andThen (CalmStep.field tame_int16 calm_int16)
    |>.andThen (CalmStep.structs (ListedGroup16.tame version {}) (ListedGroup16.calm version {})) : CalmStep _).2 t0
theorem ListGroupsResponse.canon (version : Int16) (t : ListGroupsResponse) (h : t.Canon version) :
    t.seen version {} = t :=
  ListGroupsResponse.ext (canon_opt h.ThrottleTimeMs) rfl (canon_structs (ListedGroup16.canon version) h.Groups)
theorem ListGroupsResponse.again (version : Int16) (t t0 : ListGroupsResponse) :
    ListGroupsResponse.wire version (t.seen version t0) = ListGroupsResponse.wire version t :=
  app_congr (app_congr (again_opt Wire.int32 t.ThrottleTimeMs t0.ThrottleTimeMs) (rfl)) (again_structs (fun x => ListedGroup16.again version x {}) t.Groups)
theorem ListGroupsResponse.lawful : Lawful ListGroupsResponse.type ListGroupsResponse.layout :=
  ⟨ListGroupsResponse.emits, ListGroupsResponse.sized, ListGroupsResponse.reads, ListGroupsResponse.tame, ListGroupsResponse.calm, ListGroupsResponse.canon, ListGroupsResponse.again⟩

end Kafka.Msg
