import Verif.Message.Reuse
import Verif.Gen.Spec.SyncGroup
/-!
Generated by tools/gen_messages.py: decoding into SyncGroup messages used before.
-/
set_option linter.unusedSimpArgs false
set_option linter.unusedVariables false
namespace Kafka.Msg

/-- What `t0` becomes where a new `SyncGroupRequestAssignment14` becomes `y`. -/
def SyncGroupRequestAssignment14.over (_version : Int16) (y _t0 : SyncGroupRequestAssignment14) : SyncGroupRequestAssignment14 :=
  { MemberId := y.MemberId,
    Assignment := y.Assignment }

/-- An array of structures is nil. -/
def SyncGroupRequestAssignment14.Nulls (_version : Int16) (_y : SyncGroupRequestAssignment14) : Prop :=
  False

/-- `SyncGroupRequestAssignment14` in use again. -/
def SyncGroupRequestAssignment14.reuse : Reuse SyncGroupRequestAssignment14.type := { over := SyncGroupRequestAssignment14.over, Nulls := SyncGroupRequestAssignment14.Nulls }

/-- The same after the first `k` statements of `Decode`. -/
def SyncGroupRequestAssignment14.overAt (_version : Int16) (k : Nat) (y t0 : SyncGroupRequestAssignment14) : SyncGroupRequestAssignment14 :=
  { MemberId := upto k 0 (y.MemberId) t0.MemberId,
    Assignment := upto k 1 (y.Assignment) t0.Assignment }

theorem SyncGroupRequestAssignment14.sim (v : Int16) (t0 : SyncGroupRequestAssignment14) : Sim (SyncGroupRequestAssignment14.overAt v 0 · t0) (SyncGroupRequestAssignment14.overAt v 2 · t0) (SyncGroupRequestAssignment14.decode v) :=
  ((.field fun _ _ => rfl) : Sim (SyncGroupRequestAssignment14.overAt v 0 · t0) (SyncGroupRequestAssignment14.overAt v 1 · t0) _)
    |>.andThen ((.field fun _ _ => rfl) : Sim (SyncGroupRequestAssignment14.overAt v 1 · t0) (SyncGroupRequestAssignment14.overAt v 2 · t0) _)
theorem SyncGroupRequestAssignment14.reusable : SyncGroupRequestAssignment14.reuse.Holds SyncGroupRequestAssignment14.layout where
  decode v t0 d := by
    have h := SyncGroupRequestAssignment14.sim v t0 {} d
    have e : SyncGroupRequestAssignment14.overAt v 0 {} t0 = t0 := by first | rfl | (simp only [SyncGroupRequestAssignment14.overAt, upto_zero, Option.none_or, ite_self] <;> rfl)
    simp only [e] at h
    exact h
  same v y t0 _h := (app_congr rfl rfl)
  stale _ _ h := h.elim

/-- What `t0` becomes where a new `SyncGroupRequest` becomes `y`. -/
def SyncGroupRequest.over (version : Int16) (y t0 : SyncGroupRequest) : SyncGroupRequest :=
  { GroupId := y.GroupId,
    GenerationId := y.GenerationId,
    MemberId := y.MemberId,
    GroupInstanceId := if version ≥ 3 then y.GroupInstanceId else t0.GroupInstanceId,
    Assignments := y.Assignments.or t0.Assignments }

/-- An array of structures is nil. -/
def SyncGroupRequest.Nulls (_version : Int16) (y : SyncGroupRequest) : Prop :=
  y.Assignments = none

/-- `SyncGroupRequest` in use again. -/
def SyncGroupRequest.reuse : Reuse SyncGroupRequest.type := { over := SyncGroupRequest.over, Nulls := SyncGroupRequest.Nulls }

/-- The same after the first `k` statements of `Decode`. -/
def SyncGroupRequest.overAt (version : Int16) (k : Nat) (y t0 : SyncGroupRequest) : SyncGroupRequest :=
  { GroupId := upto k 0 (y.GroupId) t0.GroupId,
    GenerationId := upto k 1 (y.GenerationId) t0.GenerationId,
    MemberId := upto k 2 (y.MemberId) t0.MemberId,
    GroupInstanceId := upto k 3 (if version ≥ 3 then y.GroupInstanceId else t0.GroupInstanceId) t0.GroupInstanceId,
    Assignments := y.Assignments.or t0.Assignments }

theorem SyncGroupRequest.sim (v : Int16) (t0 : SyncGroupRequest) : Sim (SyncGroupRequest.overAt v 0 · t0) (SyncGroupRequest.overAt v 5 · t0) (SyncGroupRequest.decode v) :=
  ((.field fun _ _ => rfl) : Sim (SyncGroupRequest.overAt v 0 · t0) (SyncGroupRequest.overAt v 1 · t0) _)
    |>.andThen ((.field fun _ _ => rfl) : Sim (SyncGroupRequest.overAt v 1 · t0) (SyncGroupRequest.overAt v 2 · t0) _)
    |>.andThen ((.field fun _ _ => rfl) : Sim (SyncGroupRequest.overAt v 2 · t0) (SyncGroupRequest.overAt v 3 · t0) _)
    |>.andThen ((.onlyIf (fun hc => .field fun _ _ => by simp only [SyncGroupRequest.overAt, if_pos hc]; rfl) fun hc _ => by simp only [SyncGroupRequest.overAt, if_neg hc]; rfl) : Sim (SyncGroupRequest.overAt v 3 · t0) (SyncGroupRequest.overAt v 4 · t0) _)
    |>.andThen ((.structs (fun _ _ => rfl) fun _ => rfl) : Sim (SyncGroupRequest.overAt v 4 · t0) (SyncGroupRequest.overAt v 5 · t0) _)
theorem SyncGroupRequest.reusable : SyncGroupRequest.reuse.Holds SyncGroupRequest.layout where
  decode v t0 d := by
    have h := SyncGroupRequest.sim v t0 {} d
    have e : SyncGroupRequest.overAt v 0 {} t0 = t0 := by first | rfl | (simp only [SyncGroupRequest.overAt, upto_zero, Option.none_or, ite_self] <;> rfl)
    simp only [e] at h
    exact h
  same v y t0 h := (app_congr (app_congr (app_congr (app_congr rfl rfl) rfl) (again_opt Wire.string y.GroupInstanceId t0.GroupInstanceId)) (same_or fun hn => h (hn)))
  stale v y h := by
    obtain h := h
    · exact ⟨({ Assignments := some [{}] } : SyncGroupRequest), (app_ne_right (app_congr (app_congr (app_congr rfl rfl) rfl) (again_opt Wire.string y.GroupInstanceId [])) (stale_or h))⟩

/-- What `t0` becomes where a new `SyncGroupResponse` becomes `y`. -/
def SyncGroupResponse.over (version : Int16) (y t0 : SyncGroupResponse) : SyncGroupResponse :=
  { ThrottleTimeMs := if version ≥ 1 then y.ThrottleTimeMs else t0.ThrottleTimeMs,
    ErrorCode := y.ErrorCode,
    Assignment := y.Assignment }

/-- An array of structures is nil. -/
def SyncGroupResponse.Nulls (_version : Int16) (_y : SyncGroupResponse) : Prop :=
  False

/-- `SyncGroupResponse` in use again. -/
def SyncGroupResponse.reuse : Reuse SyncGroupResponse.type := { over := SyncGroupResponse.over, Nulls := SyncGroupResponse.Nulls }

/-- The same after the first `k` statements of `Decode`. -/
def SyncGroupResponse.overAt (version : Int16) (k : Nat) (y t0 : SyncGroupResponse) : SyncGroupResponse :=
  { ThrottleTimeMs := upto k 0 (if version ≥ 1 then y.ThrottleTimeMs else t0.ThrottleTimeMs) t0.ThrottleTimeMs,
    ErrorCode := upto k 1 (y.ErrorCode) t0.ErrorCode,
    Assignment := upto k 2 (y.Assignment) t0.Assignment }

theorem SyncGroupResponse.sim (v : Int16) (t0 : SyncGroupResponse) : Sim (SyncGroupResponse.overAt v 0 · t0) (SyncGroupResponse.overAt v 3 · t0) (SyncGroupResponse.decode v) :=
  ((.onlyIf (fun hc => .field fun _ _ => by simp only [SyncGroupResponse.overAt, if_pos hc]; rfl) fun hc _ => by simp only [SyncGroupResponse.overAt, if_neg hc]; rfl) : Sim (SyncGroupResponse.overAt v 0 · t0) (SyncGroupResponse.overAt v 1 · t0) _)
    |>.andThen ((.field fun _ _ => rfl) : Sim (SyncGroupResponse.overAt v 1 · t0) (SyncGroupResponse.overAt v 2 · t0) _)
    |>.andThen ((.field fun _ _ => rfl) : Sim (SyncGroupResponse.overAt v 2 · t0) (SyncGroupResponse.overAt v 3 · t0) _)
theorem SyncGroupResponse.reusable : SyncGroupResponse.reuse.Holds SyncGroupResponse.layout where
  decode v t0 d := by
    have h := SyncGroupResponse.sim v t0 {} d
    have e : SyncGroupResponse.overAt v 0 {} t0 = t0 := by first | rfl | (simp only [SyncGroupResponse.overAt, upto_zero, Option.none_or, ite_self] <;> rfl)
    simp only [e] at h
    exact h
  same v y t0 _h := (app_congr (app_congr (again_opt Wire.int32 y.ThrottleTimeMs t0.ThrottleTimeMs) rfl) rfl)
  stale _ _ h := h.elim

/-- The structures of the SyncGroup messages. -/
def reuseSyncGroup : List (Σ (M : MsgType) (_ : Layout M), Reuse M) :=
  [⟨SyncGroupRequest.type, SyncGroupRequest.layout, SyncGroupRequest.reuse⟩,
   ⟨SyncGroupRequestAssignment14.type, SyncGroupRequestAssignment14.layout, SyncGroupRequestAssignment14.reuse⟩,
   ⟨SyncGroupResponse.type, SyncGroupResponse.layout, SyncGroupResponse.reuse⟩]
theorem reuseSyncGroup_holds : ∀ p ∈ reuseSyncGroup, p.2.2.Holds p.2.1 := by
  unfold reuseSyncGroup
  simp only [List.forall_mem_cons]
  exact ⟨SyncGroupRequest.reusable, SyncGroupRequestAssignment14.reusable, SyncGroupResponse.reusable, fun _ h => absurd h (by simp)⟩

end Kafka.Msg
