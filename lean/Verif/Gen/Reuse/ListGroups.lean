import Verif.Message.Reuse
import Verif.Gen.Spec.ListGroups
/-!
Generated by tools/gen_messages.py: decoding into ListGroups messages used before.
-/
set_option linter.unusedSimpArgs false
set_option linter.unusedVariables false
namespace Kafka.Msg

/-- What `t0` becomes where a new `ListGroupsRequest` becomes `y`. -/
def ListGroupsRequest.over (_version : Int16) (_y _t0 : ListGroupsRequest) : ListGroupsRequest :=
  {}

/-- An array of structures is nil. -/
def ListGroupsRequest.Nulls (_version : Int16) (_y : ListGroupsRequest) : Prop :=
  False

/-- `ListGroupsRequest` in use again. -/
def ListGroupsRequest.reuse : Reuse ListGroupsRequest.type := { over := ListGroupsRequest.over, Nulls := ListGroupsRequest.Nulls }

/-- The same after the first `k` statements of `Decode`. -/
def ListGroupsRequest.overAt (_version : Int16) (_k : Nat) (_y _t0 : ListGroupsRequest) : ListGroupsRequest :=
  {}

theorem ListGroupsRequest.sim (v : Int16) (t0 : ListGroupsRequest) : Sim (ListGroupsRequest.overAt v 0 · t0) (ListGroupsRequest.overAt v 0 · t0) (ListGroupsRequest.decode v) :=
  .nop fun _ => rfl
theorem ListGroupsRequest.reusable : ListGroupsRequest.reuse.Holds ListGroupsRequest.layout where
  decode v t0 d := by
    have h := ListGroupsRequest.sim v t0 {} d
    have e : ListGroupsRequest.overAt v 0 {} t0 = t0 := by first | rfl | (simp only [ListGroupsRequest.overAt, upto_zero, Option.none_or, ite_self] <;> rfl)
    simp only [e] at h
    exact h
  same v y t0 _h := rfl
  stale _ _ h := h.elim

/-- What `t0` becomes where a new `ListedGroup16` becomes `y`. -/
def ListedGroup16.over (_version : Int16) (y _t0 : ListedGroup16) : ListedGroup16 :=
  { GroupId := y.GroupId,
    ProtocolType := y.ProtocolType }

/-- An array of structures is nil. -/
def ListedGroup16.Nulls (_version : Int16) (_y : ListedGroup16) : Prop :=
  False

/-- `ListedGroup16` in use again. -/
def ListedGroup16.reuse : Reuse ListedGroup16.type := { over := ListedGroup16.over, Nulls := ListedGroup16.Nulls }

/-- The same after the first `k` statements of `Decode`. -/
def ListedGroup16.overAt (_version : Int16) (k : Nat) (y t0 : ListedGroup16) : ListedGroup16 :=
  { GroupId := upto k 0 (y.GroupId) t0.GroupId,
    ProtocolType := upto k 1 (y.ProtocolType) t0.ProtocolType }

theorem ListedGroup16.sim (v : Int16) (t0 : ListedGroup16) : Sim (ListedGroup16.overAt v 0 · t0) (ListedGroup16.overAt v 2 · t0) (ListedGroup16.decode v) :=
  ((.field fun _ _ => rfl) : Sim (ListedGroup16.overAt v 0 · t0) (ListedGroup16.overAt v 1 · t0) _)
    |>.andThen ((.field fun _ _ => rfl) : Sim (ListedGroup16.overAt v 1 · t0) (ListedGroup16.overAt v 2 · t0) _)
theorem ListedGroup16.reusable : ListedGroup16.reuse.Holds ListedGroup16.layout where
  decode v t0 d := by
    have h := ListedGroup16.sim v t0 {} d
    have e : ListedGroup16.overAt v 0 {} t0 = t0 := by first | rfl | (simp only [ListedGroup16.overAt, upto_zero, Option.none_or, ite_self] <;> rfl)
    simp only [e] at h
    exact h
  same v y t0 _h := (app_congr rfl rfl)
  stale _ _ h := h.elim

/-- What `t0` becomes where a new `ListGroupsResponse` becomes `y`. -/
def ListGroupsResponse.over (version : Int16) (y t0 : ListGroupsResponse) : ListGroupsResponse :=
  { ThrottleTimeMs := if version ≥ 1 then y.ThrottleTimeMs else t0.ThrottleTimeMs,
    ErrorCode := y.ErrorCode,
    Groups := y.Groups.or t0.Groups }

/-- An array of structures is nil. -/
def ListGroupsResponse.Nulls (_version : Int16) (y : ListGroupsResponse) : Prop :=
  y.Groups = none

/-- `ListGroupsResponse` in use again. -/
def ListGroupsResponse.reuse : Reuse ListGroupsResponse.type := { over := ListGroupsResponse.over, Nulls := ListGroupsResponse.Nulls }

/-- The same after the first `k` statements of `Decode`. -/
def ListGroupsResponse.overAt (version : Int16) (k : Nat) (y t0 : ListGroupsResponse) : ListGroupsResponse :=
  { ThrottleTimeMs := upto k 0 (if version ≥ 1 then y.ThrottleTimeMs else t0.ThrottleTimeMs) t0.ThrottleTimeMs,
    ErrorCode := upto k 1 (y.ErrorCode) t0.ErrorCode,
    Groups := y.Groups.or t0.Groups }

theorem ListGroupsResponse.sim (v : Int16) (t0 : ListGroupsResponse) : Sim (ListGroupsResponse.overAt v 0 · t0) (ListGroupsResponse.overAt v 3 · t0) (ListGroupsResponse.decode v) :=
  ((.onlyIf (fun hc => .field fun _ _ => by simp only [ListGroupsResponse.overAt, if_pos hc]; rfl) fun hc _ => by simp only [ListGroupsResponse.overAt, if_neg hc]; rfl) : Sim (ListGroupsResponse.overAt v 0 · t0) (ListGroupsResponse.overAt v 1 · t0) _)
    |>.andThen ((.field fun _ _ => rfl) : Sim (ListGroupsResponse.overAt v 1 · t0) (ListGroupsResponse.overAt v 2 · t0) _)
    |>.andThen ((.structs (fun _ _ => rfl) fun _ => rfl) : Sim (ListGroupsResponse.overAt v 2 · t0) (ListGroupsResponse.overAt v 3 · t0) _)
theorem ListGroupsResponse.reusable : ListGroupsResponse.reuse.Holds ListGroupsResponse.layout where
  decode v t0 d := by
    have h := ListGroupsResponse.sim v t0 {} d
    have e : ListGroupsResponse.overAt v 0 {} t0 = t0 := by first | rfl | (simp only [ListGroupsResponse.overAt, upto_zero, Option.none_or, ite_self] <;> rfl)
    simp only [e] at h
    exact h
  same v y t0 h := (app_congr (app_congr (again_opt Wire.int32 y.ThrottleTimeMs t0.ThrottleTimeMs) rfl) (same_or fun hn => h (hn)))
  stale v y h := by
    obtain h := h
    · exact ⟨({ Groups := some [{}] } : ListGroupsResponse), (app_ne_right (app_congr (again_opt Wire.int32 y.ThrottleTimeMs 0) rfl) (stale_or h))⟩

/-- The structures of the ListGroups messages. -/
def reuseListGroups : List (Σ (M : MsgType) (_ : Layout M), Reuse M) :=
  [⟨ListGroupsRequest.type, ListGroupsRequest.layout, ListGroupsRequest.reuse⟩,
   ⟨ListGroupsResponse.type, ListGroupsResponse.layout, ListGroupsResponse.reuse⟩,
   ⟨ListedGroup16.type, ListedGroup16.layout, ListedGroup16.reuse⟩]
theorem reuseListGroups_holds : ∀ p ∈ reuseListGroups, p.2.2.Holds p.2.1 := by
  unfold reuseListGroups
  simp only [List.forall_mem_cons]
  exact ⟨ListGroupsRequest.reusable, ListGroupsResponse.reusable, ListedGroup16.reusable, fun _ h => absurd h (by simp)⟩

end Kafka.Msg
