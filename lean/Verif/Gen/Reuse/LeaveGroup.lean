import Verif.Message.Reuse
import Verif.Gen.Spec.LeaveGroup
/-!
Generated by tools/gen_messages.py: decoding into LeaveGroup messages used before.
-/
set_option linter.unusedSimpArgs false
set_option linter.unusedVariables false
namespace Kafka.Msg

/-- What `t0` becomes where a new `MemberIdentity13` becomes `y`. -/
def MemberIdentity13.over (version : Int16) (y t0 : MemberIdentity13) : MemberIdentity13 :=
  { MemberId := if version ≥ 3 then y.MemberId else t0.MemberId,
    GroupInstanceId := if version ≥ 3 then y.GroupInstanceId else t0.GroupInstanceId }

/-- An array of structures is nil. -/
def MemberIdentity13.Nulls (_version : Int16) (_y : MemberIdentity13) : Prop :=
  False

/-- `MemberIdentity13` in use again. -/
def MemberIdentity13.reuse : Reuse MemberIdentity13.type := { over := MemberIdentity13.over, Nulls := MemberIdentity13.Nulls }

/-- The same after the first `k` statements of `Decode`. -/
def MemberIdentity13.overAt (version : Int16) (k : Nat) (y t0 : MemberIdentity13) : MemberIdentity13 :=
  { MemberId := upto k 0 (if version ≥ 3 then y.MemberId else t0.MemberId) t0.MemberId,
    GroupInstanceId := upto k 1 (if version ≥ 3 then y.GroupInstanceId else t0.GroupInstanceId) t0.GroupInstanceId }

theorem MemberIdentity13.sim (v : Int16) (t0 : MemberIdentity13) : Sim (MemberIdentity13.overAt v 0 · t0) (MemberIdentity13.overAt v 2 · t0) (MemberIdentity13.decode v) :=
  ((.onlyIf (fun hc => .field fun _ _ => by simp only [MemberIdentity13.overAt, if_pos hc]; rfl) fun hc _ => by simp only [MemberIdentity13.overAt, if_neg hc]; rfl) : Sim (MemberIdentity13.overAt v 0 · t0) (MemberIdentity13.overAt v 1 · t0) _)
    |>.andThen ((.onlyIf (fun hc => .field fun _ _ => by simp only [MemberIdentity13.overAt, if_pos hc]; rfl) fun hc _ => by simp only [MemberIdentity13.overAt, if_neg hc]; rfl) : Sim (MemberIdentity13.overAt v 1 · t0) (MemberIdentity13.overAt v 2 · t0) _)
theorem MemberIdentity13.reusable : MemberIdentity13.reuse.Holds MemberIdentity13.layout where
  decode v t0 d := by
    have h := MemberIdentity13.sim v t0 {} d
    have e : MemberIdentity13.overAt v 0 {} t0 = t0 := by first | rfl | (simp only [MemberIdentity13.overAt, upto_zero, Option.none_or, ite_self] <;> rfl)
    simp only [e] at h
    exact h
  same v y t0 _h := (app_congr (again_opt Wire.string y.MemberId t0.MemberId) (again_opt Wire.string y.GroupInstanceId t0.GroupInstanceId))
  stale _ _ h := h.elim

/-- What `t0` becomes where a new `LeaveGroupRequest` becomes `y`. -/
def LeaveGroupRequest.over (version : Int16) (y t0 : LeaveGroupRequest) : LeaveGroupRequest :=
  { GroupId := y.GroupId,
    MemberId := if version ≥ 0 ∧ version ≤ 2 then y.MemberId else t0.MemberId,
    Members := if version ≥ 3 then y.Members.or t0.Members else t0.Members }

/-- An array of structures is nil. -/
def LeaveGroupRequest.Nulls (version : Int16) (y : LeaveGroupRequest) : Prop :=
  (version ≥ 3) ∧ y.Members = none

/-- `LeaveGroupRequest` in use again. -/
def LeaveGroupRequest.reuse : Reuse LeaveGroupRequest.type := { over := LeaveGroupRequest.over, Nulls := LeaveGroupRequest.Nulls }

/-- The same after the first `k` statements of `Decode`. -/
def LeaveGroupRequest.overAt (version : Int16) (k : Nat) (y t0 : LeaveGroupRequest) : LeaveGroupRequest :=
  { GroupId := upto k 0 (y.GroupId) t0.GroupId,
    MemberId := upto k 1 (if version ≥ 0 ∧ version ≤ 2 then y.MemberId else t0.MemberId) t0.MemberId,
    Members := if version ≥ 3 then y.Members.or t0.Members else t0.Members }

theorem LeaveGroupRequest.sim (v : Int16) (t0 : LeaveGroupRequest) : Sim (LeaveGroupRequest.overAt v 0 · t0) (LeaveGroupRequest.overAt v 3 · t0) (LeaveGroupRequest.decode v) :=
  ((.field fun _ _ => rfl) : Sim (LeaveGroupRequest.overAt v 0 · t0) (LeaveGroupRequest.overAt v 1 · t0) _)
    |>.andThen ((.onlyIf (fun hc => .field fun _ _ => by simp only [LeaveGroupRequest.overAt, if_pos hc]; rfl) fun hc _ => by simp only [LeaveGroupRequest.overAt, if_neg hc]; rfl) : Sim (LeaveGroupRequest.overAt v 1 · t0) (LeaveGroupRequest.overAt v 2 · t0) _)
    |>.andThen ((.onlyIf (fun hc => .structs (fun _ _ => by simp only [LeaveGroupRequest.overAt, if_pos hc]; rfl) fun _ => by simp only [LeaveGroupRequest.overAt, if_pos hc]; rfl) fun hc _ => by simp only [LeaveGroupRequest.overAt, if_neg hc]; rfl) : Sim (LeaveGroupRequest.overAt v 2 · t0) (LeaveGroupRequest.overAt v 3 · t0) _)
theorem LeaveGroupRequest.reusable : LeaveGroupRequest.reuse.Holds LeaveGroupRequest.layout where
  decode v t0 d := by
    have h := LeaveGroupRequest.sim v t0 {} d
    have e : LeaveGroupRequest.overAt v 0 {} t0 = t0 := by first | rfl | (simp only [LeaveGroupRequest.overAt, upto_zero, Option.none_or, ite_self] <;> rfl)
    simp only [e] at h
    exact h
  same v y t0 h := (app_congr (app_congr rfl (again_opt Wire.string y.MemberId t0.MemberId)) (same_when fun hc hn => h (⟨hc, hn⟩)))
  stale v y h := by
    obtain ⟨hc, h⟩ := h
    · exact ⟨({ Members := some [{}] } : LeaveGroupRequest), (app_ne_right (app_congr rfl (again_opt Wire.string y.MemberId [])) (stale_when hc h))⟩

/-- What `t0` becomes where a new `MemberResponse13` becomes `y`. -/
def MemberResponse13.over (version : Int16) (y t0 : MemberResponse13) : MemberResponse13 :=
  { MemberId := if version ≥ 3 then y.MemberId else t0.MemberId,
    GroupInstanceId := if version ≥ 3 then y.GroupInstanceId else t0.GroupInstanceId,
    ErrorCode := if version ≥ 3 then y.ErrorCode else t0.ErrorCode }

/-- An array of structures is nil. -/
def MemberResponse13.Nulls (_version : Int16) (_y : MemberResponse13) : Prop :=
  False

/-- `MemberResponse13` in use again. -/
def MemberResponse13.reuse : Reuse MemberResponse13.type := { over := MemberResponse13.over, Nulls := MemberResponse13.Nulls }

/-- The same after the first `k` statements of `Decode`. -/
def MemberResponse13.overAt (version : Int16) (k : Nat) (y t0 : MemberResponse13) : MemberResponse13 :=
  { MemberId := upto k 0 (if version ≥ 3 then y.MemberId else t0.MemberId) t0.MemberId,
    GroupInstanceId := upto k 1 (if version ≥ 3 then y.GroupInstanceId else t0.GroupInstanceId) t0.GroupInstanceId,
    ErrorCode := upto k 2 (if version ≥ 3 then y.ErrorCode else t0.ErrorCode) t0.ErrorCode }

theorem MemberResponse13.sim (v : Int16) (t0 : MemberResponse13) : Sim (MemberResponse13.overAt v 0 · t0) (MemberResponse13.overAt v 3 · t0) (MemberResponse13.decode v) :=
  ((.onlyIf (fun hc => .field fun _ _ => by simp only [MemberResponse13.overAt, if_pos hc]; rfl) fun hc _ => by simp only [MemberResponse13.overAt, if_neg hc]; rfl) : Sim (MemberResponse13.overAt v 0 · t0) (MemberResponse13.overAt v 1 · t0) _)
    |>.andThen ((.onlyIf (fun hc => .field fun _ _ => by simp only [MemberResponse13.overAt, if_pos hc]; rfl) fun hc _ => by simp only [MemberResponse13.overAt, if_neg hc]; rfl) : Sim (MemberResponse13.overAt v 1 · t0) (MemberResponse13.overAt v 2 · t0) _)
    |>.andThen ((.onlyIf (fun hc => .field fun _ _ => by simp only [MemberResponse13.overAt, if_pos hc]; rfl) fun hc _ => by simp only [MemberResponse13.overAt, if_neg hc]; rfl) : Sim (MemberResponse13.overAt v 2 · t0) (MemberResponse13.overAt v 3 · t0) _)
theorem MemberResponse13.reusable : MemberResponse13.reuse.Holds MemberResponse13.layout where
  decode v t0 d := by
    have h := MemberResponse13.sim v t0 {} d
    have e : MemberResponse13.overAt v 0 {} t0 = t0 := by first | rfl | (simp only [MemberResponse13.overAt, upto_zero, Option.none_or, ite_self] <;> rfl)
    simp only [e] at h
    exact h
  same v y t0 _h := (app_congr (app_congr (again_opt Wire.string y.MemberId t0.MemberId) (again_opt Wire.string y.GroupInstanceId t0.GroupInstanceId)) (again_opt Wire.int16 y.ErrorCode t0.ErrorCode))
  stale _ _ h := h.elim

/-- What `t0` becomes where a new `LeaveGroupResponse` becomes `y`. -/
def LeaveGroupResponse.over (version : Int16) (y t0 : LeaveGroupResponse) : LeaveGroupResponse :=
  { ThrottleTimeMs := if version ≥ 1 then y.ThrottleTimeMs else t0.ThrottleTimeMs,
    ErrorCode := y.ErrorCode,
    Members := if version ≥ 3 then y.Members.or t0.Members else t0.Members }

/-- An array of structures is nil. -/
def LeaveGroupResponse.Nulls (version : Int16) (y : LeaveGroupResponse) : Prop :=
  (version ≥ 3) ∧ y.Members = none

/-- `LeaveGroupResponse` in use again. -/
def LeaveGroupResponse.reuse : Reuse LeaveGroupResponse.type := { over := LeaveGroupResponse.over, Nulls := LeaveGroupResponse.Nulls }

/-- The same after the first `k` statements of `Decode`. -/
def LeaveGroupResponse.overAt (version : Int16) (k : Nat) (y t0 : LeaveGroupResponse) : LeaveGroupResponse :=
  { ThrottleTimeMs := upto k 0 (if version ≥ 1 then y.ThrottleTimeMs else t0.ThrottleTimeMs) t0.ThrottleTimeMs,
    ErrorCode := upto k 1 (y.ErrorCode) t0.ErrorCode,
    Members := if version ≥ 3 then y.Members.or t0.Members else t0.Members }

theorem LeaveGroupResponse.sim (v : Int16) (t0 : LeaveGroupResponse) : Sim (LeaveGroupResponse.overAt v 0 · t0) (LeaveGroupResponse.overAt v 3 · t0) (LeaveGroupResponse.decode v) :=
  ((.onlyIf (fun hc => .field fun _ _ => by simp only [LeaveGroupResponse.overAt, if_pos hc]; rfl) fun hc _ => by simp only [LeaveGroupResponse.overAt, if_neg hc]; rfl) : Sim (LeaveGroupResponse.overAt v 0 · t0) (LeaveGroupResponse.overAt v 1 · t0) _)
    |>.andThen ((.field fun _ _ => rfl) : Sim (LeaveGroupResponse.overAt v 1 · t0) (LeaveGroupResponse.overAt v 2 · t0) _)
    |>.andThen ((.onlyIf (fun hc => .structs (fun _ _ => by simp only [LeaveGroupResponse.overAt, if_pos hc]; rfl) fun _ => by simp only [LeaveGroupResponse.overAt, if_pos hc]; rfl) fun hc _ => by simp only [LeaveGroupResponse.overAt, if_neg hc]; rfl) : Sim (LeaveGroupResponse.overAt v 2 · t0) (LeaveGroupResponse.overAt v 3 · t0) _)
theorem LeaveGroupResponse.reusable : LeaveGroupResponse.reuse.Holds LeaveGroupResponse.layout where
  decode v t0 d := by
    have h := LeaveGroupResponse.sim v t0 {} d
    have e : LeaveGroupResponse.overAt v 0 {} t0 = t0 := by first | rfl | (simp only [LeaveGroupResponse.overAt, upto_zero, Option.none_or, ite_self] <;> rfl)
    simp only [e] at h
    exact h
  same v y t0 h := (app_congr (app_congr (again_opt Wire.int32 y.ThrottleTimeMs t0.ThrottleTimeMs) rfl) (same_when fun hc hn => h (⟨hc, hn⟩)))
  stale v y h := by
    obtain ⟨hc, h⟩ := h
    · exact ⟨({ Members := some [{}] } : LeaveGroupResponse), (app_ne_right (app_congr (again_opt Wire.int32 y.ThrottleTimeMs 0) rfl) (stale_when hc h))⟩

/-- The structures of the LeaveGroup messages. -/
def reuseLeaveGroup : List (Σ (M : MsgType) (_ : Layout M), Reuse M) :=
  [⟨LeaveGroupRequest.type, LeaveGroupRequest.layout, LeaveGroupRequest.reuse⟩,
   ⟨MemberIdentity13.type, MemberIdentity13.layout, MemberIdentity13.reuse⟩,
   ⟨LeaveGroupResponse.type, LeaveGroupResponse.layout, LeaveGroupResponse.reuse⟩,
   ⟨MemberResponse13.type, MemberResponse13.layout, MemberResponse13.reuse⟩]
theorem reuseLeaveGroup_holds : ∀ p ∈ reuseLeaveGroup, p.2.2.Holds p.2.1 := by
  unfold reuseLeaveGroup
  simp only [List.forall_mem_cons]
  exact ⟨LeaveGroupRequest.reusable, MemberIdentity13.reusable, LeaveGroupResponse.reusable, MemberResponse13.reusable, fun _ h => absurd h (by simp)⟩

end Kafka.Msg
