import Verif.Message.StepLemmas
import Verif.Gen.Spec.SyncGroup
/-!
Generated by tools/gen_messages.py: laws of the SyncGroup messages.
-/
namespace Kafka.Msg

theorem SyncGroupRequestAssignment14.emits (version : Int16) (t : SyncGroupRequestAssignment14) :
    Emits (SyncGroupRequestAssignment14.encode version t) (SyncGroupRequestAssignment14.wire version t) :=
  (emits_string t.MemberId)
    |>.andThen (emits_bytes t.Assignment)
theorem SyncGroupRequestAssignment14.sized (version : Int16) (t : SyncGroupRequestAssignment14) :
    Sized (SyncGroupRequestAssignment14.size version t) (SyncGroupRequestAssignment14.wire version t) :=
  Grows.sized ((Grows.add (sized_string t.MemberId))
    |>.andThen (Grows.add (sized_bytes t.Assignment)))
theorem SyncGroupRequestAssignment14.reads (version : Int16) (t : SyncGroupRequestAssignment14) (h : t.Fits version) (t0 : SyncGroupRequestAssignment14) :
    Reads (SyncGroupRequestAssignment14.decode version t0) (SyncGroupRequestAssignment14.wire version t) (t.seen version t0) :=
  ((Step.field (set := fun (t : SyncGroupRequestAssignment14) x => { t with MemberId := x }) (reads_string h.MemberId))
    |>.andThen (Step.field (set := fun (t : SyncGroupRequestAssignment14) x => { t with Assignment := x }) (reads_bytes h.Assignment)) : Step _ _ _) t0
theorem SyncGroupRequestAssignment14.tame (version : Int16) (t0 : SyncGroupRequestAssignment14) : Tame (SyncGroupRequestAssignment14.decode version t0) :=
  ((TameStep.field tame_string)
    |>.andThen (TameStep.field tame_bytes) : TameStep _) t0
theorem SyncGroupRequestAssignment14.calm (version : Int16) (t0 : SyncGroupRequestAssignment14) :
    Calm (SyncGroupRequestAssignment14.decode version t0) (fun _ => True) :=
  ((CalmStep.field tame_string calm_string)
    |>.andThen (CalmStep.field tame_bytes calm_bytes) : CalmStep _).2 t0
theorem SyncGroupRequestAssignment14.canon (version : Int16) (t : SyncGroupRequestAssignment14) (h : t.Canon version) :
    t.seen version {} = t :=
  SyncGroupRequestAssignment14.ext rfl (canon_nonNil h.Assignment)
theorem SyncGroupRequestAssignment14.again (version : Int16) (t t0 : SyncGroupRequestAssignment14) :
    SyncGroupRequestAssignment14.wire version (t.seen version t0) = SyncGroupRequestAssignment14.wire version t :=
  app_congr (rfl) (rfl)
theorem SyncGroupRequestAssignment14.lawful : Lawful SyncGroupRequestAssignment14.type SyncGroupRequestAssignment14.layout :=
  ⟨SyncGroupRequestAssignment14.emits, SyncGroupRequestAssignment14.sized, SyncGroupRequestAssignment14.reads, SyncGroupRequestAssignment14.tame, SyncGroupRequestAssignment14.calm, SyncGroupRequestAssignment14.canon, SyncGroupRequestAssignment14.again⟩

theorem SyncGroupRequest.emits (version : Int16) (t : SyncGroupRequest) :
    Emits (SyncGroupRequest.encode version t) (SyncGroupRequest.wire version t) :=
  (emits_string t.GroupId)
    |>.andThen (emits_int32 t.GenerationId)
    |>.andThen (emits_string t.MemberId)
    |>.andThen (Emits.onlyIf (emits_string t.GroupInstanceId))
    |>.andThen (emits_structs (SyncGroupRequestAssignment14.emits version) t.Assignments)
theorem SyncGroupRequest.sized (version : Int16) (t : SyncGroupRequest) :
    Sized (SyncGroupRequest.size version t) (SyncGroupRequest.wire version t) :=
  Grows.sized ((Grows.add (sized_string t.GroupId))
    |>.andThen (Grows.add (sized_int32 t.GenerationId))
    |>.andThen (Grows.add (sized_string t.MemberId))
    |>.andThen (Grows.onlyIf (Grows.add (sized_string t.GroupInstanceId)))
    |>.andThen (Grows.structs (SyncGroupRequestAssignment14.sized version) t.Assignments))
theorem SyncGroupRequest.reads (version : Int16) (t : SyncGroupRequest) (h : t.Fits version) (t0 : SyncGroupRequest) :
    Reads (SyncGroupRequest.decode version t0) (SyncGroupRequest.wire version t) (t.seen version t0) :=
  ((Step.field (set := fun (t : SyncGroupRequest) x => { t with GroupId := x }) (reads_string h.GroupId))
    |>.andThen (Step.field (set := fun (t : SyncGroupRequest) x => { t with GenerationId := x }) (reads_int32 t.GenerationId))
    |>.andThen (Step.field (set := fun (t : SyncGroupRequest) x => { t with MemberId := x }) (reads_string h.MemberId))
    |>.andThen (Step.optField (c := version ≥ 3) (set := fun (t : SyncGroupRequest) x => { t with GroupInstanceId := x }) (·.GroupInstanceId) (fun _ => rfl) fun hc => reads_string (h.GroupInstanceId hc))
    |>.andThen (Step.structs (get := fun (t : SyncGroupRequest) => t.Assignments) (set := fun (t : SyncGroupRequest) x => { t with Assignments := x }) (fun x hx => SyncGroupRequestAssignment14.reads version x hx {}) h.Assignments) : Step _ _ _) t0
theorem SyncGroupRequest.tame (version : Int16) (t0 : SyncGroupRequest) : Tame (SyncGroupRequest.decode version t0) :=
  ((TameStep.field tame_string)
    |>.andThen (TameStep.field tame_int32)
    |>.andThen (TameStep.field tame_string)
    |>.andThen (TameStep.onlyIf (TameStep.field tame_string))
    |>.andThen (TameStep.structs (SyncGroupRequestAssignment14.tame version {})) : TameStep _) t0
theorem SyncGroupRequest.calm (version : Int16) (t0 : SyncGroupRequest) :
    Calm (SyncGroupRequest.decode version t0) (fun _ => True) :=
  ((CalmStep.field tame_string calm_string)
    |>.andThen (CalmStep.field tame_int32 calm_int32)
    |>.andThen (CalmStep.field tame_string calm_string)
    |>.andThen (CalmStep.onlyIf (CalmStep.field tame_string calm_string))
    |>.andThen (CalmStep.structs (SyncGroupRequestAssignment14.tame version {}) (SyncGroupRequestAssignment14.calm version {})) : CalmStep _).2 t0
theorem SyncGroupRequest.canon (version : Int16) (t : SyncGroupRequest) (h : t.Canon version) :
    t.seen version {} = t :=
  SyncGroupRequest.ext rfl rfl rfl (canon_opt h.GroupInstanceId) (canon_structs (SyncGroupRequestAssignment14.canon version) h.Assignments)
theorem SyncGroupRequest.again (version : Int16) (t t0 : SyncGroupRequest) :
    SyncGroupRequest.wire version (t.seen version t0) = SyncGroupRequest.wire version t :=
  app_congr (app_congr (app_congr (app_congr (rfl) (rfl)) (rfl)) (again_opt Wire.string t.GroupInstanceId t0.GroupInstanceId)) (again_structs (fun x => SyncGroupRequestAssignment14.again version x {}) t.Assignments)
theorem SyncGroupRequest.lawful : Lawful SyncGroupRequest.type SyncGroupRequest.layout :=
  ⟨SyncGroupRequest.emits, SyncGroupRequest.sized, SyncGroupRequest.reads, SyncGroupRequest.tame, SyncGroupRequest.calm, SyncGroupRequest.canon, SyncGroupRequest.again⟩

theorem SyncGroupResponse.emits (version : Int16) (t : SyncGroupResponse) :
    Emits (SyncGroupResponse.encode version t) (SyncGroupResponse.wire version t) :=
  (Emits.onlyIf (emits_int32 t.ThrottleTimeMs))
    |>.andThen (emits_int16 t.ErrorCode)
    |>.andThen (emits_bytes t.Assignment)
theorem SyncGroupResponse.sized (version : Int16) (t : SyncGroupResponse) :
    Sized (SyncGroupResponse.size version t) (SyncGroupResponse.wire version t) :=
  Grows.sized ((Grows.onlyIf (Grows.add (sized_int32 t.ThrottleTimeMs)))
    |>.andThen (Grows.add (sized_int16 t.ErrorCode))
    |>.andThen (Grows.add (sized_bytes t.Assignment)))
theorem SyncGroupResponse.reads (version : Int16) (t : SyncGroupResponse) (h : t.Fits version) (t0 : SyncGroupResponse) :
    Reads (SyncGroupResponse.decode version t0) (SyncGroupResponse.wire version t) (t.seen version t0) :=
  ((Step.optField (c := version ≥ 1) (set := fun (t : SyncGroupResponse) x => { t with ThrottleTimeMs := x }) (·.ThrottleTimeMs) (fun _ => rfl) fun _ => reads_int32 t.ThrottleTimeMs)
    |>.andThen (Step.field (set := fun (t : SyncGroupResponse) x => { t with ErrorCode := x }) (reads_int16 t.ErrorCode))
    |>.andThen (Step.field (set := fun (t : SyncGroupResponse) x => { t with Assignment := x }) (reads_bytes h.Assignment)) : Step _ _ _) t0
theorem SyncGroupResponse.tame (version : Int16) (t0 : SyncGroupResponse) : Tame (SyncGroupResponse.decode version t0) :=
  ((TameStep.onlyIf (TameStep.field tame_int32))
    |>.andThen (TameStep.field tame_int16)
    |>.andThen (TameStep.field tame_bytes) : TameStep _) t0
theorem SyncGroupResponse.calm (version : Int16) (t0 : SyncGroupResponse) :
    Calm (SyncGroupResponse.decode version t0) (fun _ => True) :=
  ((CalmStep.onlyIf (CalmStep.field tame_int32 calm_int32))
    |>.andThen (CalmStep.field tame_int16 calm_int16)
    |>.andThen (CalmStep.field tame_bytes calm_bytes) : CalmStep _).2 t0
theorem SyncGroupResponse.canon (version : Int16) (t : SyncGroupResponse) (h : t.Canon version) :
    t.seen version {} = t :=
  SyncGroupResponse.ext (canon_opt h.ThrottleTimeMs) rfl (canon_nonNil h.Assignment)
theorem SyncGroupResponse.again (version : Int16) (t t0 : SyncGroupResponse) :
    SyncGroupResponse.wire version (t.seen version t0) = SyncGroupResponse.wire version t :=
  app_congr (app_congr (again_opt Wire.int32 t.ThrottleTimeMs t0.ThrottleTimeMs) (rfl)) (rfl)
theorem SyncGroupResponse.lawful : Lawful SyncGroupResponse.type SyncGroupResponse.layout :=
  ⟨SyncGroupResponse.emits, SyncGroupResponse.sized, SyncGroupResponse.reads, SyncGroupResponse.tame, SyncGroupResponse.calm, SyncGroupResponse.canon, SyncGroupResponse.again⟩

end Kafka.Msg
