import Verif.Message.StepLemmas
import Verif.Gen.Spec.LeaveGroup
/-!
Generated by tools/gen_messages.py: laws of the LeaveGroup messages.
-/
namespace Kafka.Msg

theorem MemberIdentity13.emits (version : Int16) (t : MemberIdentity13) :
    Emits (MemberIdentity13.encode version t) (MemberIdentity13.wire version t) :=
  (Emits.onlyIf (emits_string t.MemberId))
    |>.andThen (Emits.onlyIf (emits_string t.GroupInstanceId))
theorem MemberIdentity13.sized (version : Int16) (t : MemberIdentity13) :
    Sized (MemberIdentity13.size version t) (MemberIdentity13.wire version t) :=
  Grows.sized ((Grows.onlyIf (Grows.add (sized_string t.MemberId)))
    |>.andThen (Grows.onlyIf (Grows.add (sized_string t.GroupInstanceId))))
theorem MemberIdentity13.reads (version : Int16) (t : MemberIdentity13) (h : t.Fits version) (t0 : MemberIdentity13) :
    Reads (MemberIdentity13.decode version t0) (MemberIdentity13.wire version t) (t.seen version t0) :=
  ((Step.optField (c := version ≥ 3) (set := fun (t : MemberIdentity13) x => { t with MemberId := x }) (·.MemberId) (fun _ => rfl) fun hc => reads_string (h.MemberId hc))
    |>.andThen (Step.optField (c := version ≥ 3) (set := fun (t : MemberIdentity13) x => { t with GroupInstanceId := x }) (·.GroupInstanceId) (fun _ => rfl) fun hc => reads_string (h.GroupInstanceId hc)) : Step _ _ _) t0
theorem MemberIdentity13.tame (version : Int16) (t0 : MemberIdentity13) : Tame (MemberIdentity13.decode version t0) :=
  ((TameStep.onlyIf (TameStep.field tame_string))
    |>.andThen (TameStep.onlyIf (TameStep.field tame_string)) : TameStep _) t0
theorem MemberIdentity13.calm (version : Int16) (t0 : MemberIdentity13) :
    Calm (MemberIdentity13.decode version t0) (fun _ => True) :=
  ((CalmStep.onlyIf (CalmStep.field tame_string calm_string))
    |>.andThen (CalmStep.onlyIf (CalmStep.field tame_string calm_string)) : CalmStep _).2 t0
theorem MemberIdentity13.canon (version : Int16) (t : MemberIdentity13) (h : t.Canon version) :
    t.seen version {} = t :=
  MemberIdentity13.ext (canon_opt h.MemberId) (canon_opt h.GroupInstanceId)
theorem MemberIdentity13.again (version : Int16) (t t0 : MemberIdentity13) :
    MemberIdentity13.wire version (t.seen version t0) = MemberIdentity13.wire version t :=
  app_congr (again_opt Wire.string t.MemberId t0.MemberId) (again_opt Wire.string t.GroupInstanceId t0.GroupInstanceId)
theorem MemberIdentity13.lawful : Lawful MemberIdentity13.type MemberIdentity13.layout :=
  ⟨MemberIdentity13.emits, MemberIdentity13.sized, MemberIdentity13.reads, MemberIdentity13.tame, MemberIdentity13.calm, MemberIdentity13.canon, MemberIdentity13.again⟩

theorem LeaveGroupRequest.emits (version : Int16) (t : LeaveGroupRequest) :
    Emits (LeaveGroupRequest.encode version t) (LeaveGroupRequest.wire version t) :=
  (emits_string t.GroupId)
    |>.andThen (Emits.onlyIf (emits_string t.MemberId))
    |>.andThen (Emits.onlyIf (emits_structs (MemberIdentity13.emits version) t.Members))
theorem LeaveGroupRequest.sized (version : Int16) (t : LeaveGroupRequest) :
    Sized (LeaveGroupRequest.size version t) (LeaveGroupRequest.wire version t) :=
  Grows.sized ((Grows.add (sized_string t.GroupId))
    |>.andThen (Grows.onlyIf (Grows.add (sized_string t.MemberId)))
    |>.andThen (Grows.onlyIf (Grows.structs (MemberIdentity13.sized version) t.Members)))
theorem LeaveGroupRequest.reads (version : Int16) (t : LeaveGroupRequest) (h : t.Fits version) (t0 : LeaveGroupRequest) :
    Reads (LeaveGroupRequest.decode version t0) (LeaveGroupRequest.wire version t) (t.seen version t0) :=
  ((Step.field (set := fun (t : LeaveGroupRequest) x => { t with GroupId := x }) (reads_string h.GroupId))
    |>.andThen (Step.optField (c := version ≥ 0 ∧ version ≤ 2) (set := fun (t : LeaveGroupRequest) x => { t with MemberId := x }) (·.MemberId) (fun _ => rfl) fun hc => reads_string (h.MemberId hc))
    |>.andThen (Step.optStructs (c := version ≥ 3) (get := fun (t : LeaveGroupRequest) => t.Members) (set := fun (t : LeaveGroupRequest) x => { t with Members := x }) (fun _ => rfl) (fun x hx => MemberIdentity13.reads version x hx {}) h.Members) : Step _ _ _) t0
theorem LeaveGroupRequest.tame (version : Int16) (t0 : LeaveGroupRequest) : Tame (LeaveGroupRequest.decode version t0) :=
  ((TameStep.field tame_string)
    |>.andThen (TameStep.onlyIf (TameStep.field tame_string))
    |>.andThen (TameStep.onlyIf (TameStep.structs (MemberIdentity13.tame version {}))) : TameStep _) t0
theorem LeaveGroupRequest.calm (version : Int16) (t0 : LeaveGroupRequest) :
    Calm (LeaveGroupRequest.decode version t0) (fun _ => True) :=
  ((CalmStep.field tame_string calm_string)
    |>.andThen (CalmStep.onlyIf (CalmStep.field tame_string calm_string))
    |>.andThen (CalmStep.onlyIf (CalmStep.structs (MemberIdentity13.tame version {}) (MemberIdentity13.calm version {}))) : CalmStep _).2 t0
theorem LeaveGroupRequest.canon (version : Int16) (t : LeaveGroupRequest) (h : t.Canon version) :
    t.seen version {} = t :=
  LeaveGroupRequest.ext rfl (canon_opt h.MemberId) (canon_optStructs (MemberIdentity13.canon version) h.Members.1 h.Members.2)
theorem LeaveGroupRequest.again (version : Int16) (t t0 : LeaveGroupRequest) :
    LeaveGroupRequest.wire version (t.seen version t0) = LeaveGroupRequest.wire version t :=
  app_congr (app_congr (rfl) (again_opt Wire.string t.MemberId t0.MemberId)) (again_optStructs (fun x => MemberIdentity13.again version x {}) t.Members t0.Members)
theorem LeaveGroupRequest.lawful : Lawful LeaveGroupRequest.type LeaveGroupRequest.layout :=
  ⟨LeaveGroupRequest.emits, LeaveGroupRequest.sized, LeaveGroupRequest.reads, LeaveGroupRequest.tame, LeaveGroupRequest.calm, LeaveGroupRequest.canon, LeaveGroupRequest.again⟩

theorem MemberResponse13.emits (version : Int16) (t : MemberResponse13) :
    Emits (MemberResponse13.encode version t) (MemberResponse13.wire version t) :=
  (Emits.onlyIf (emits_string t.MemberId))
    |>.andThen (Emits.onlyIf (emits_string t.GroupInstanceId))
    |>.andThen (Emits.onlyIf (emits_int16 t.ErrorCode))
theorem MemberResponse13.sized (version : Int16) (t : MemberResponse13) :
    Sized (MemberResponse13.size version t) (MemberResponse13.wire version t) :=
  Grows.sized ((Grows.onlyIf (Grows.add (sized_string t.MemberId)))
    |>.andThen (Grows.onlyIf (Grows.add (sized_string t.GroupInstanceId)))
    |>.andThen (Grows.onlyIf (Grows.add (sized_int16 t.ErrorCode))))
theorem MemberResponse13.reads (version : Int16) (t : MemberResponse13) (h : t.Fits version) (t0 : MemberResponse13) :
    Reads (MemberResponse13.decode version t0) (MemberResponse13.wire version t) (t.seen version t0) :=
  ((Step.optField (c := version ≥ 3) (set := fun (t : MemberResponse13) x => { t with MemberId := x }) (·.MemberId) (fun _ => rfl) fun hc => reads_string (h.MemberId hc))
    |>.andThen (Step.optField (c := version ≥ 3) (set := fun (t : MemberResponse13) x => { t with GroupInstanceId := x }) (·.GroupInstanceId) (fun _ => rfl) fun hc => reads_string (h.GroupInstanceId hc))
    |>.andThen (Step.optField (c := version ≥ 3) (set := fun (t : MemberResponse13) x => { t with ErrorCode := x }) (·.ErrorCode) (fun _ => rfl) fun _ => reads_int16 t.ErrorCode) : Step _ _ _) t0
theorem MemberResponse13.tame (version : Int16) (t0 : MemberResponse13) : Tame (MemberResponse13.decode version t0) :=
  ((TameStep.onlyIf (TameStep.field tame_string))
    |>.andThen (TameStep.onlyIf (TameStep.field tame_string))
    |>.andThen (TameStep.onlyIf (TameStep.field tame_int16)) : TameStep _) t0
theorem MemberResponse13.calm (version : Int16) (t0 : MemberResponse13) :
    Calm (MemberResponse13.decode version t0) (fun _ => True) :=
  ((CalmStep.onlyIf (CalmStep.field tame_string calm_string))
    |>.andThen (CalmStep.onlyIf (CalmStep.field tame_string calm_string))
    |>.andThen (CalmStep.onlyIf (CalmStep.field tame_int16 calm_int16)) : CalmStep _).2 t0
theorem MemberResponse13.canon (version : Int16) (t : MemberResponse13) (h : t.Canon version) :
    t.seen version {} = t :=
  MemberResponse13.ext (canon_opt h.MemberId) (canon_opt h.GroupInstanceId) (canon_opt h.ErrorCode)
theorem MemberResponse13.again (version : Int16) (t t0 : MemberResponse13) :
    MemberResponse13.wire version (t.seen version t0) = MemberResponse13.wire version t :=
  app_congr (app_congr (again_opt Wire.string t.MemberId t0.MemberId) (again_opt Wire.string t.GroupInstanceId t0.GroupInstanceId)) (again_opt Wire.int16 t.ErrorCode t0.ErrorCode)
theorem MemberResponse13.lawful : Lawful MemberResponse13.type MemberResponse13.layout :=
  ⟨MemberResponse13.emits, MemberResponse13.sized, MemberResponse13.reads, MemberResponse13.tame, MemberResponse13.calm, MemberResponse13.canon, MemberResponse13.again⟩

theorem LeaveGroupResponse.emits (version : Int16) (t : LeaveGroupResponse) :
    Emits (LeaveGroupResponse.encode version t) (LeaveGroupResponse.wire version t) :=
  (Emits.onlyIf (emits_int32 t.ThrottleTimeMs))
    |>.andThen (emits_int16 t.ErrorCode)
    |>.andThen (Emits.onlyIf (emits_structs (MemberResponse13.emits version) t.Members))
theorem LeaveGroupResponse.sized (version : Int16) (t : LeaveGroupResponse) :
    Sized (LeaveGroupResponse.size version t) (LeaveGroupResponse.wire version t) :=
  Grows.sized ((Grows.onlyIf (Grows.add (sized_int32 t.ThrottleTimeMs)))
    |>.andThen (Grows.add (sized_int16 t.ErrorCode))
    |>.andThen (Grows.onlyIf (Grows.structs (MemberResponse13.sized version) t.Members)))
theorem LeaveGroupResponse.reads (version : Int16) (t : LeaveGroupResponse) (h : t.Fits version) (t0 : LeaveGroupResponse) :
    Reads (LeaveGroupResponse.decode version t0) (LeaveGroupResponse.wire version t) (t.seen version t0) :=
  ((Step.optField (c := version ≥ 1) (set := fun (t : LeaveGroupResponse) x => { t with ThrottleTimeMs := x }) (·.ThrottleTimeMs) (fun _ => rfl) fun _ => reads_int32 t.ThrottleTimeMs)
    |>.andThen (Step.field (set := fun (t : LeaveGroupResponse) x => { t with ErrorCode := x }) (reads_int16 t.ErrorCode))
    |>.andThen (Step.optStructs (c := version ≥ 3) (get := fun (t : LeaveGroupResponse) => t.Members) (set := fun (t : LeaveGroupResponse) x => { t with Members := x }) (fun _ => rfl) (fun x hx => MemberResponse13.reads version x hx {}) h.Members) : Step _ _ _) t0
theorem LeaveGroupResponse.tame (version : Int16) (t0 : LeaveGroupResponse) : Tame (LeaveGroupResponse.decode version t0) :=
  ((TameStep.onlyIf (TameStep.field tame_int32))
    |>.andThen (TameStep.field tame_int16)
    |>.andThen (TameStep.onlyIf (TameStep.structs (MemberResponse13.tame version {}))) : TameStep _) t0
theorem LeaveGroupResponse.calm (version : Int16) (t0 : LeaveGroupResponse) :
    Calm (LeaveGroupResponse.decode version t0) (fun _ => True) :=
  ((CalmStep.onlyIf (CalmStep.field tame_int32 calm_int32))
    |>.andThen (CalmStep.field tame_int16 calm_int16)
    |>.andThen (CalmStep.onlyIf (CalmStep.structs (MemberResponse13.tame version {}) (MemberResponse13.calm version {}))) : CalmStep _).2 t0
theorem LeaveGroupResponse.canon (version : Int16) (t : LeaveGroupResponse) (h : t.Canon version) :
    t.seen version {} = t :=
  LeaveGroupResponse.ext (canon_opt h.ThrottleTimeMs) rfl (canon_optStructs (MemberResponse13.canon version) h.Members.1 h.Members.2)
theorem LeaveGroupResponse.again (version : Int16) (t t0 : LeaveGroupResponse) :
    LeaveGroupResponse.wire version (t.seen version t0) = LeaveGroupResponse.wire version t :=
  app_congr (app_congr (again_opt Wire.int32 t.ThrottleTimeMs t0.ThrottleTimeMs) (rfl)) (again_optStructs (fun x => MemberResponse13.again version x {}) t.Members t0.Members)
theorem LeaveGroupResponse.lawful : Lawful LeaveGroupResponse.type LeaveGroupResponse.layout :=
  ⟨LeaveGroupResponse.emits, LeaveGroupResponse.sized, LeaveGroupResponse.reads, LeaveGroupResponse.tame, LeaveGroupResponse.calm, LeaveGroupResponse.canon, LeaveGroupResponse.again⟩

end Kafka.Msg
