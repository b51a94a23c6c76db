import Verif.Message.Reuse
import Verif.Gen.Spec.FindCoordinator
/-!
Generated by tools/gen_messages.py: decoding into FindCoordinator messages used before.
-/
set_option linter.unusedSimpArgs false
set_option linter.unusedVariables false
namespace Kafka.Msg

/-- What `t0` becomes where a new `FindCoordinatorRequest` becomes `y`. -/
def FindCoordinatorRequest.over (version : Int16) (y t0 : FindCoordinatorRequest) : FindCoordinatorRequest :=
  { Key := y.Key,
    KeyType := if version ≥ 1 then y.KeyType else t0.KeyType }

/-- An array of structures is nil. -/
def FindCoordinatorRequest.Nulls (_version : Int16) (_y : FindCoordinatorRequest) : Prop :=
  False

/-- `FindCoordinatorRequest` in use again. -/
def FindCoordinatorRequest.reuse : Reuse FindCoordinatorRequest.type := { over := FindCoordinatorRequest.over, Nulls := FindCoordinatorRequest.Nulls }

/-- The same after the first `k` statements of `Decode`. -/
def FindCoordinatorRequest.overAt (version : Int16) (k : Nat) (y t0 : FindCoordinatorRequest) : FindCoordinatorRequest :=
  { Key := upto k 0 (y.Key) t0.Key,
    KeyType := upto k 1 (if version ≥ 1 then y.KeyType else t0.KeyType) t0.KeyType }

theorem FindCoordinatorRequest.sim (v : Int16) (t0 : FindCoordinatorRequest) : Sim (FindCoordinatorRequest.overAt v 0 · t0) (FindCoordinatorRequest.overAt v 2 · t0) (FindCoordinatorRequest.decode v) :=
  ((.field fun _ _ => rfl) : Sim (FindCoordinatorRequest.overAt v 0 · t0) (FindCoordinatorRequest.overAt v 1 · t0) _)
    |>.andThen ((.onlyIf (fun hc => .field fun _ _ => by simp only [FindCoordinatorRequest.overAt, if_pos hc]; rfl) fun hc _ => by simp only [FindCoordinatorRequest.overAt, if_neg hc]; rfl) : Sim (FindCoordinatorRequest.overAt v 1 · t0) (FindCoordinatorRequest.overAt v 2 · t0) _)
theorem FindCoordinatorRequest.reusable : FindCoordinatorRequest.reuse.Holds FindCoordinatorRequest.layout where
  decode v t0 d := by
    have h := FindCoordinatorRequest.sim v t0 {} d
    have e : FindCoordinatorRequest.overAt v 0 {} t0 = t0 := by first | rfl | (simp only [FindCoordinatorRequest.overAt, upto_zero, Option.none_or, ite_self] <;> rfl)
    simp only [e] at h
    exact h
  same v y t0 _h := (app_congr rfl (again_opt Wire.int8 y.KeyType t0.KeyType))
  stale _ _ h := h.elim

/-- What `t0` becomes where a new `FindCoordinatorResponse` becomes `y`. -/
def FindCoordinatorResponse.over (version : Int16) (y t0 : FindCoordinatorResponse) : FindCoordinatorResponse :=
  { ThrottleTimeMs := if version ≥ 1 then y.ThrottleTimeMs else t0.ThrottleTimeMs,
    ErrorCode := y.ErrorCode,
    ErrorMessage := if version ≥ 1 then y.ErrorMessage else t0.ErrorMessage,
    NodeId := y.NodeId,
    Host := y.Host,
    Port := y.Port }

/-- An array of structures is nil. -/
def FindCoordinatorResponse.Nulls (_version : Int16) (_y : FindCoordinatorResponse) : Prop :=
  False

/-- `FindCoordinatorResponse` in use again. -/
def FindCoordinatorResponse.reuse : Reuse FindCoordinatorResponse.type := { over := FindCoordinatorResponse.over, Nulls := FindCoordinatorResponse.Nulls }

/-- The same after the first `k` statements of `Decode`. -/
def FindCoordinatorResponse.overAt (version : Int16) (k : Nat) (y t0 : FindCoordinatorResponse) : FindCoordinatorResponse :=
  { ThrottleTimeMs := upto k 0 (if version ≥ 1 then y.ThrottleTimeMs else t0.ThrottleTimeMs) t0.ThrottleTimeMs,
    ErrorCode := upto k 1 (y.ErrorCode) t0.ErrorCode,
    ErrorMessage := upto k 2 (if version ≥ 1 then y.ErrorMessage else t0.ErrorMessage) t0.ErrorMessage,
    NodeId := upto k 3 (y.NodeId) t0.NodeId,
    Host := upto k 4 (y.Host) t0.Host,
    Port := upto k 5 (y.Port) t0.Port }

theorem FindCoordinatorResponse.sim (v : Int16) (t0 : FindCoordinatorResponse) : Sim (FindCoordinatorResponse.overAt v 0 · t0) (FindCoordinatorResponse.overAt v 6 · t0) (FindCoordinatorResponse.decode v) :=
  ((.onlyIf (fun hc => .field fun _ _ => by simp only [FindCoordinatorResponse.overAt, if_pos hc]; rfl) fun hc _ => by simp only [FindCoordinatorResponse.overAt, if_neg hc]; rfl) : Sim (FindCoordinatorResponse.overAt v 0 · t0) (FindCoordinatorResponse.overAt v 1 · t0) _)
    |>.andThen ((.field fun _ _ => rfl) : Sim (FindCoordinatorResponse.overAt v 1 · t0) (FindCoordinatorResponse.overAt v 2 · t0) _)
    |>.andThen ((.onlyIf (fun hc => .field fun _ _ => by simp only [FindCoordinatorResponse.overAt, if_pos hc]; rfl) fun hc _ => by simp only [FindCoordinatorResponse.overAt, if_neg hc]; rfl) : Sim (FindCoordinatorResponse.overAt v 2 · t0) (FindCoordinatorResponse.overAt v 3 · t0) _)
    |>.andThen ((.field fun _ _ => rfl) : Sim (FindCoordinatorResponse.overAt v 3 · t0) (FindCoordinatorResponse.overAt v 4 · t0) _)
    |>.andThen ((.field fun _ _ => rfl) : Sim (FindCoordinatorResponse.overAt v 4 · t0) (FindCoordinatorResponse.overAt v 5 · t0) _)
    |>.andThen ((.field fun _ _ => rfl) : Sim (FindCoordinatorResponse.overAt v 5 · t0) (FindCoordinatorResponse.overAt v 6 · t0) _)
theorem FindCoordinatorResponse.reusable : FindCoordinatorResponse.reuse.Holds FindCoordinatorResponse.layout where
  decode v t0 d := by
    have h := FindCoordinatorResponse.sim v t0 {} d
    have e : FindCoordinatorResponse.overAt v 0 {} t0 = t0 := by first | rfl | (simp only [FindCoordinatorResponse.overAt, upto_zero, Option.none_or, ite_self] <;> rfl)
    simp only [e] at h
    exact h
  same v y t0 _h := (app_congr (app_congr (app_congr (app_congr (app_congr (again_opt Wire.int32 y.ThrottleTimeMs t0.ThrottleTimeMs) rfl) (again_opt Wire.string y.ErrorMessage t0.ErrorMessage)) rfl) rfl) rfl)
  stale _ _ h := h.elim

/-- The structures of the FindCoordinator messages. -/
def reuseFindCoordinator : List (Σ (M : MsgType) (_ : Layout M), Reuse M) :=
  [⟨FindCoordinatorRequest.type, FindCoordinatorRequest.layout, FindCoordinatorRequest.reuse⟩,
   ⟨FindCoordinatorResponse.type, FindCoordinatorResponse.layout, FindCoordinatorResponse.reuse⟩]
theorem reuseFindCoordinator_holds : ∀ p ∈ reuseFindCoordinator, p.2.2.Holds p.2.1 := by
  unfold reuseFindCoordinator
  simp only [List.forall_mem_cons]
  exact ⟨FindCoordinatorRequest.reusable, FindCoordinatorResponse.reusable, fun _ h => absurd h (by simp)⟩

end Kafka.Msg
