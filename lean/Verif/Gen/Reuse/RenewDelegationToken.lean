import Verif.Message.Reuse
import Verif.Gen.Spec.RenewDelegationToken
/-!
Generated by tools/gen_messages.py: decoding into RenewDelegationToken messages used before.
-/
set_option linter.unusedSimpArgs false
set_option linter.unusedVariables false
namespace Kafka.Msg

/-- What `t0` becomes where a new `RenewDelegationTokenRequest` becomes `y`. -/
def RenewDelegationTokenRequest.over (_version : Int16) (y _t0 : RenewDelegationTokenRequest) : RenewDelegationTokenRequest :=
  { Hmac := y.Hmac,
    RenewPeriodMs := y.RenewPeriodMs }

/-- An array of structures is nil. -/
def RenewDelegationTokenRequest.Nulls (_version : Int16) (_y : RenewDelegationTokenRequest) : Prop :=
  False

/-- `RenewDelegationTokenRequest` in use again. -/
def RenewDelegationTokenRequest.reuse : Reuse RenewDelegationTokenRequest.type := { over := RenewDelegationTokenRequest.over, Nulls := RenewDelegationTokenRequest.Nulls }

/-- The same after the first `k` statements of `Decode`. -/
def RenewDelegationTokenRequest.overAt (_version : Int16) (k : Nat) (y t0 : RenewDelegationTokenRequest) : RenewDelegationTokenRequest :=
  { Hmac := upto k 0 (y.Hmac) t0.Hmac,
    RenewPeriodMs := upto k 1 (y.RenewPeriodMs) t0.RenewPeriodMs }

theorem RenewDelegationTokenRequest.sim (v : Int16) (t0 : RenewDelegationTokenRequest) : Sim (RenewDelegationTokenRequest.overAt v 0 · t0) (RenewDelegationTokenRequest.overAt v 2 · t0) (RenewDelegationTokenRequest.decode v) :=
  ((.field fun _ _ => rfl) : Sim (RenewDelegationTokenRequest.overAt v 0 · t0) (RenewDelegationTokenRequest.overAt v 1 · t0) _)
    |>.andThen ((.field fun _ _ => rfl) : Sim (RenewDelegationTokenRequest.overAt v 1 · t0) (RenewDelegationTokenRequest.overAt v 2 · t0) _)
theorem RenewDelegationTokenRequest.reusable : RenewDelegationTokenRequest.reuse.Holds RenewDelegationTokenRequest.layout where
  decode v t0 d := by
    have h := RenewDelegationTokenRequest.sim v t0 {} d
    have e : RenewDelegationTokenRequest.overAt v 0 {} t0 = t0 := by first | rfl | (simp only [RenewDelegationTokenRequest.overAt, upto_zero, Option.none_or, ite_self] <;> rfl)
    simp only [e] at h
    exact h
  same v y t0 _h := (app_congr rfl rfl)
  stale _ _ h := h.elim

/-- What `t0` becomes where a new `RenewDelegationTokenResponse` becomes `y`. -/
def RenewDelegationTokenResponse.over (_version : Int16) (y _t0 : RenewDelegationTokenResponse) : RenewDelegationTokenResponse :=
  { ErrorCode := y.ErrorCode,
    ExpiryTimestampMs := y.ExpiryTimestampMs,
    ThrottleTimeMs := y.ThrottleTimeMs }

/-- An array of structures is nil. -/
def RenewDelegationTokenResponse.Nulls (_version : Int16) (_y : RenewDelegationTokenResponse) : Prop :=
  False

/-- `RenewDelegationTokenResponse` in use again. -/
def RenewDelegationTokenResponse.reuse : Reuse RenewDelegationTokenResponse.type := { over := RenewDelegationTokenResponse.over, Nulls := RenewDelegationTokenResponse.Nulls }

/-- The same after the first `k` statements of `Decode`. -/
def RenewDelegationTokenResponse.overAt (_version : Int16) (k : Nat) (y t0 : RenewDelegationTokenResponse) : RenewDelegationTokenResponse :=
  { ErrorCode := upto k 0 (y.ErrorCode) t0.ErrorCode,
    ExpiryTimestampMs := upto k 1 (y.ExpiryTimestampMs) t0.ExpiryTimestampMs,
    ThrottleTimeMs := upto k 2 (y.ThrottleTimeMs) t0.ThrottleTimeMs }

theorem RenewDelegationTokenResponse.sim (v : Int16) (t0 : RenewDelegationTokenResponse) : Sim (RenewDelegationTokenResponse.overAt v 0 · t0) (RenewDelegationTokenResponse.overAt v 3 · t0) (RenewDelegationTokenResponse.decode v) :=
  ((.field fun _ _ => rfl) : Sim (RenewDelegationTokenResponse.overAt v 0 · t0) (RenewDelegationTokenResponse.overAt v 1 · t0) _)
    |>.andThen ((.field fun _ _ => rfl) : Sim (RenewDelegationTokenResponse.overAt v 1 · t0) (RenewDelegationTokenResponse.overAt v 2 · t0) _)
    |>.andThen ((.field fun _ _ => rfl) : Sim (RenewDelegationTokenResponse.overAt v 2 · t0) (RenewDelegationTokenResponse.overAt v 3 · t0) _)
theorem RenewDelegationTokenResponse.reusable : RenewDelegationTokenResponse.reuse.Holds RenewDelegationTokenResponse.layout where
  decode v t0 d := by
    have h := RenewDelegationTokenResponse.sim v t0 {} d
    have e : RenewDelegationTokenResponse.overAt v 0 {} t0 = t0 := by first | rfl | (simp only [RenewDelegationTokenResponse.overAt, upto_zero, Option.none_or, ite_self] <;> rfl)
    simp only [e] at h
    exact h
  same v y t0 _h := (app_congr (app_congr rfl rfl) rfl)
  stale _ _ h := h.elim

/-- The structures of the RenewDelegationToken messages. -/
def reuseRenewDelegationToken : List (Σ (M : MsgType) (_ : Layout M), Reuse M) :=
  [⟨RenewDelegationTokenRequest.type, RenewDelegationTokenRequest.layout, RenewDelegationTokenRequest.reuse⟩,
   ⟨RenewDelegationTokenResponse.type, RenewDelegationTokenResponse.layout, RenewDelegationTokenResponse.reuse⟩]
theorem reuseRenewDelegationToken_holds : ∀ p ∈ reuseRenewDelegationToken, p.2.2.Holds p.2.1 := by
  unfold reuseRenewDelegationToken
  simp only [List.forall_mem_cons]
  exact ⟨RenewDelegationTokenRequest.reusable, RenewDelegationTokenResponse.reusable, fun _ h => absurd h (by simp)⟩

end Kafka.Msg
