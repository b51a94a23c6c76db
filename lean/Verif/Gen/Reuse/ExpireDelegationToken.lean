import Verif.Message.Reuse
import Verif.Gen.Spec.ExpireDelegationToken
/-!
Generated by tools/gen_messages.py: decoding into ExpireDelegationToken messages used before.
-/
set_option linter.unusedSimpArgs false
set_option linter.unusedVariables false
namespace Kafka.Msg

/-- What `t0` becomes where a new `ExpireDelegationTokenRequest` becomes `y`. -/
def ExpireDelegationTokenRequest.over (_version : Int16) (y _t0 : ExpireDelegationTokenRequest) : ExpireDelegationTokenRequest :=
  { Hmac := y.Hmac,
    ExpiryTimePeriodMs := y.ExpiryTimePeriodMs }

/-- An array of structures is nil. -/
def ExpireDelegationTokenRequest.Nulls (_version : Int16) (_y : ExpireDelegationTokenRequest) : Prop :=
  False

/-- `ExpireDelegationTokenRequest` in use again. -/
def ExpireDelegationTokenRequest.reuse : Reuse ExpireDelegationTokenRequest.type := { over := ExpireDelegationTokenRequest.over, Nulls := ExpireDelegationTokenRequest.Nulls }

/-- The same after the first `k` statements of `Decode`. -/
def ExpireDelegationTokenRequest.overAt (_version : Int16) (k : Nat) (y t0 : ExpireDelegationTokenRequest) : ExpireDelegationTokenRequest :=
  { Hmac := upto k 0 (y.Hmac) t0.Hmac,
    ExpiryTimePeriodMs := upto k 1 (y.ExpiryTimePeriodMs) t0.ExpiryTimePeriodMs }

theorem ExpireDelegationTokenRequest.sim (v : Int16) (t0 : ExpireDelegationTokenRequest) : Sim (ExpireDelegationTokenRequest.overAt v 0 · t0) (ExpireDelegationTokenRequest.overAt v 2 · t0) (ExpireDelegationTokenRequest.decode v) :=
  ((.field fun _ _ => rfl) : Sim (ExpireDelegationTokenRequest.overAt v 0 · t0) (ExpireDelegationTokenRequest.overAt v 1 · t0) _)
    |>.andThen ((.field fun _ _ => rfl) : Sim (ExpireDelegationTokenRequest.overAt v 1 · t0) (ExpireDelegationTokenRequest.overAt v 2 · t0) _)
theorem ExpireDelegationTokenRequest.reusable : ExpireDelegationTokenRequest.reuse.Holds ExpireDelegationTokenRequest.layout where
  decode v t0 d := by
    have h := ExpireDelegationTokenRequest.sim v t0 {} d
    have e : ExpireDelegationTokenRequest.overAt v 0 {} t0 = t0 := by first | rfl | (simp only [ExpireDelegationTokenRequest.overAt, upto_zero, Option.none_or, ite_self] <;> rfl)
    simp only [e] at h
    exact h
  same v y t0 _h := (app_congr rfl rfl)
  stale _ _ h := h.elim

/-- What `t0` becomes where a new `ExpireDelegationTokenResponse` becomes `y`. -/
def ExpireDelegationTokenResponse.over (_version : Int16) (y _t0 : ExpireDelegationTokenResponse) : ExpireDelegationTokenResponse :=
  { ErrorCode := y.ErrorCode,
    ExpiryTimestampMs := y.ExpiryTimestampMs,
    ThrottleTimeMs := y.ThrottleTimeMs }

/-- An array of structures is nil. -/
def ExpireDelegationTokenResponse.Nulls (_version : Int16) (_y : ExpireDelegationTokenResponse) : Prop :=
  False

/-- `ExpireDelegationTokenResponse` in use again. -/
def ExpireDelegationTokenResponse.reuse : Reuse ExpireDelegationTokenResponse.type := { over := ExpireDelegationTokenResponse.over, Nulls := ExpireDelegationTokenResponse.Nulls }

/-- The same after the first `k` statements of `Decode`. -/
def ExpireDelegationTokenResponse.overAt (_version : Int16) (k : Nat) (y t0 : ExpireDelegationTokenResponse) : ExpireDelegationTokenResponse :=
  { ErrorCode := upto k 0 (y.ErrorCode) t0.ErrorCode,
    ExpiryTimestampMs := upto k 1 (y.ExpiryTimestampMs) t0.ExpiryTimestampMs,
    ThrottleTimeMs := upto k 2 (y.ThrottleTimeMs) t0.ThrottleTimeMs }

theorem ExpireDelegationTokenResponse.sim (v : Int16) (t0 : ExpireDelegationTokenResponse) : Sim (ExpireDelegationTokenResponse.overAt v 0 · t0) (ExpireDelegationTokenResponse.overAt v 3 · t0) (ExpireDelegationTokenResponse.decode v) :=
  ((.field fun _ _ => rfl) : Sim (ExpireDelegationTokenResponse.overAt v 0 · t0) (ExpireDelegationTokenResponse.overAt v 1 · t0) _)
    |>.andThen ((.field fun _ _ => rfl) : Sim (ExpireDelegationTokenResponse.overAt v 1 · t0) (ExpireDelegationTokenResponse.overAt v 2 · t0) _)
    |>.andThen ((.field fun _ _ => rfl) : Sim (ExpireDelegationTokenResponse.overAt v 2 · t0) (ExpireDelegationTokenResponse.overAt v 3 · t0) _)
theorem ExpireDelegationTokenResponse.reusable : ExpireDelegationTokenResponse.reuse.Holds ExpireDelegationTokenResponse.layout where
  decode v t0 d := by
    have h := ExpireDelegationTokenResponse.sim v t0 {} d
    have e : ExpireDelegationTokenResponse.overAt v 0 {} t0 = t0 := by first | rfl | (simp only [ExpireDelegationTokenResponse.overAt, upto_zero, Option.none_or, ite_self] <;> rfl)
    simp only [e] at h
    exact h
  same v y t0 _h := (app_congr (app_congr rfl rfl) rfl)
  stale _ _ h := h.elim

/-- The structures of the ExpireDelegationToken messages. -/
def reuseExpireDelegationToken : List (Σ (M : MsgType) (_ : Layout M), Reuse M) :=
  [⟨ExpireDelegationTokenRequest.type, ExpireDelegationTokenRequest.layout, ExpireDelegationTokenRequest.reuse⟩,
   ⟨ExpireDelegationTokenResponse.type, ExpireDelegationTokenResponse.layout, ExpireDelegationTokenResponse.reuse⟩]
theorem reuseExpireDelegationToken_holds : ∀ p ∈ reuseExpireDelegationToken, p.2.2.Holds p.2.1 := by
  unfold reuseExpireDelegationToken
  simp only [List.forall_mem_cons]
  exact ⟨ExpireDelegationTokenRequest.reusable, ExpireDelegationTokenResponse.reusable, fun _ h => absurd h (by simp)⟩

end Kafka.Msg
