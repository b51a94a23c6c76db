import Verif.Message.Reuse
import Verif.Gen.Spec.DeleteGroups
/-!
Generated by tools/gen_messages.py: decoding into DeleteGroups messages used before.
-/
set_option linter.unusedSimpArgs false
set_option linter.unusedVariables false
namespace Kafka.Msg

/-- What `t0` becomes where a new `DeleteGroupsRequest` becomes `y`. -/
def DeleteGroupsRequest.over (_version : Int16) (y _t0 : DeleteGroupsRequest) : DeleteGroupsRequest :=
  { GroupsNames := y.GroupsNames }

/-- An array of structures is nil. -/
def DeleteGroupsRequest.Nulls (_version : Int16) (_y : DeleteGroupsRequest) : Prop :=
  False

/-- `DeleteGroupsRequest` in use again. -/
def DeleteGroupsRequest.reuse : Reuse DeleteGroupsRequest.type := { over := DeleteGroupsRequest.over, Nulls := DeleteGroupsRequest.Nulls }

/-- The same after the first `k` statements of `Decode`. -/
def DeleteGroupsRequest.overAt (_version : Int16) (k : Nat) (y t0 : DeleteGroupsRequest) : DeleteGroupsRequest :=
  { GroupsNames := upto k 0 (y.GroupsNames) t0.GroupsNames }

theorem DeleteGroupsRequest.sim (v : Int16) (t0 : DeleteGroupsRequest) : Sim (DeleteGroupsRequest.overAt v 0 · t0) (DeleteGroupsRequest.overAt v 1 · t0) (DeleteGroupsRequest.decode v) :=
  ((.field fun _ _ => rfl) : Sim (DeleteGroupsRequest.overAt v 0 · t0) (DeleteGroupsRequest.overAt v 1 · t0) _)
theorem DeleteGroupsRequest.reusable : DeleteGroupsRequest.reuse.Holds DeleteGroupsRequest.layout where
  decode v t0 d := by
    have h := DeleteGroupsRequest.sim v t0 {} d
    have e : DeleteGroupsRequest.overAt v 0 {} t0 = t0 := by first | rfl | (simp only [DeleteGroupsRequest.overAt, upto_zero, Option.none_or, ite_self] <;> rfl)
    simp only [e] at h
    exact h
  same v y t0 _h := rfl
  stale _ _ h := h.elim

/-- What `t0` becomes where a new `DeletableGroupResult42` becomes `y`. -/
def DeletableGroupResult42.over (_version : Int16) (y _t0 : DeletableGroupResult42) : DeletableGroupResult42 :=
  { GroupId := y.GroupId,
    ErrorCode := y.ErrorCode }

/-- An array of structures is nil. -/
def DeletableGroupResult42.Nulls (_version : Int16) (_y : DeletableGroupResult42) : Prop :=
  False

/-- `DeletableGroupResult42` in use again. -/
def DeletableGroupResult42.reuse : Reuse DeletableGroupResult42.type := { over := DeletableGroupResult42.over, Nulls := DeletableGroupResult42.Nulls }

/-- The same after the first `k` statements of `Decode`. -/
def DeletableGroupResult42.overAt (_version : Int16) (k : Nat) (y t0 : DeletableGroupResult42) : DeletableGroupResult42 :=
  { GroupId := upto k 0 (y.GroupId) t0.GroupId,
    ErrorCode := upto k 1 (y.ErrorCode) t0.ErrorCode }

theorem DeletableGroupResult42.sim (v : Int16) (t0 : DeletableGroupResult42) : Sim (DeletableGroupResult42.overAt v 0 · t0) (DeletableGroupResult42.overAt v 2 · t0) (DeletableGroupResult42.decode v) :=
  ((.field fun _ _ => rfl) : Sim (DeletableGroupResult42.overAt v 0 · t0) (DeletableGroupResult42.overAt v 1 · t0) _)
    |>.andThen ((.field fun _ _ => rfl) : Sim (DeletableGroupResult42.overAt v 1 · t0) (DeletableGroupResult42.overAt v 2 · t0) _)
theorem DeletableGroupResult42.reusable : DeletableGroupResult42.reuse.Holds DeletableGroupResult42.layout where
  decode v t0 d := by
    have h := DeletableGroupResult42.sim v t0 {} d
    have e : DeletableGroupResult42.overAt v 0 {} t0 = t0 := by first | rfl | (simp only [DeletableGroupResult42.overAt, upto_zero, Option.none_or, ite_self] <;> rfl)
    simp only [e] at h
    exact h
  same v y t0 _h := (app_congr rfl rfl)
  stale _ _ h := h.elim

/-- What `t0` becomes where a new `DeleteGroupsResponse` becomes `y`. -/
def DeleteGroupsResponse.over (_version : Int16) (y t0 : DeleteGroupsResponse) : DeleteGroupsResponse :=
  { ThrottleTimeMs := y.ThrottleTimeMs,
    Results := y.Results.or t0.Results }

/-- An array of structures is nil. -/
def DeleteGroupsResponse.Nulls (_version : Int16) (y : DeleteGroupsResponse) : Prop :=
  y.Results = none

/-- `DeleteGroupsResponse` in use again. -/
def DeleteGroupsResponse.reuse : Reuse DeleteGroupsResponse.type := { over := DeleteGroupsResponse.over, Nulls := DeleteGroupsResponse.Nulls }

/-- The same after the first `k` statements of `Decode`. -/
def DeleteGroupsResponse.overAt (_version : Int16) (k : Nat) (y t0 : DeleteGroupsResponse) : DeleteGroupsResponse :=
  { ThrottleTimeMs := upto k 0 (y.ThrottleTimeMs) t0.ThrottleTimeMs,
    Results := y.Results.or t0.Results }

theorem DeleteGroupsResponse.sim (v : Int16) (t0 : DeleteGroupsResponse) : Sim (DeleteGroupsResponse.overAt v 0 · t0) (DeleteGroupsResponse.overAt v 2 · t0) (DeleteGroupsResponse.decode v) :=
  ((.field fun _ _ => rfl) : Sim (DeleteGroupsResponse.overAt v 0 · t0) (DeleteGroupsResponse.overAt v 1 · t0) _)
    |>.andThen ((.structs (fun _ _ => rfl) fun _ => rfl) : Sim (DeleteGroupsResponse.overAt v 1 · t0) (DeleteGroupsResponse.overAt v 2 · t0) _)
theorem DeleteGroupsResponse.reusable : DeleteGroupsResponse.reuse.Holds DeleteGroupsResponse.layout where
  decode v t0 d := by
    have h := DeleteGroupsResponse.sim v t0 {} d
    have e : DeleteGroupsResponse.overAt v 0 {} t0 = t0 := by first | rfl | (simp only [DeleteGroupsResponse.overAt, upto_zero, Option.none_or, ite_self] <;> rfl)
    simp only [e] at h
    exact h
  same v y t0 h := (app_congr rfl (same_or fun hn => h (hn)))
  stale v y h := by
    obtain h := h
    · exact ⟨({ Results := some [{}] } : DeleteGroupsResponse), (app_ne_right rfl (stale_or h))⟩

/-- The structures of the DeleteGroups messages. -/
def reuseDeleteGroups : List (Σ (M : MsgType) (_ : Layout M), Reuse M) :=
  [⟨DeleteGroupsRequest.type, DeleteGroupsRequest.layout, DeleteGroupsRequest.reuse⟩,
   ⟨DeleteGroupsResponse.type, DeleteGroupsResponse.layout, DeleteGroupsResponse.reuse⟩,
   ⟨DeletableGroupResult42.type, DeletableGroupResult42.layout, DeletableGroupResult42.reuse⟩]
theorem reuseDeleteGroups_holds : ∀ p ∈ reuseDeleteGroups, p.2.2.Holds p.2.1 := by
  unfold reuseDeleteGroups
  simp only [List.forall_mem_cons]
  exact ⟨DeleteGroupsRequest.reusable, DeleteGroupsResponse.reusable, DeletableGroupResult42.reusable, fun _ h => absurd h (by simp)⟩

end Kafka.Msg
