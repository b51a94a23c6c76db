import Verif.Message.Reuse
import Verif.Gen.Spec.SaslHandshake
/-!
Generated by tools/gen_messages.py: decoding into SaslHandshake messages used before.
-/
set_option linter.unusedSimpArgs false
set_option linter.unusedVariables false
namespace Kafka.Msg

/-- What `t0` becomes where a new `SaslHandshakeRequest` becomes `y`. -/
def SaslHandshakeRequest.over (_version : Int16) (y _t0 : SaslHandshakeRequest) : SaslHandshakeRequest :=
  { Mechanism := y.Mechanism }

/-- An array of structures is nil. -/
def SaslHandshakeRequest.Nulls (_version : Int16) (_y : SaslHandshakeRequest) : Prop :=
  False

/-- `SaslHandshakeRequest` in use again. -/
def SaslHandshakeRequest.reuse : Reuse SaslHandshakeRequest.type := { over := SaslHandshakeRequest.over, Nulls := SaslHandshakeRequest.Nulls }

/-- The same after the first `k` statements of `Decode`. -/
def SaslHandshakeRequest.overAt (_version : Int16) (k : Nat) (y t0 : SaslHandshakeRequest) : SaslHandshakeRequest :=
  { Mechanism := upto k 0 (y.Mechanism) t0.Mechanism }

theorem SaslHandshakeRequest.sim (v : Int16) (t0 : SaslHandshakeRequest) : Sim (SaslHandshakeRequest.overAt v 0 · t0) (SaslHandshakeRequest.overAt v 1 · t0) (SaslHandshakeRequest.decode v) :=
  ((.field fun _ _ => rfl) : Sim (SaslHandshakeRequest.overAt v 0 · t0) (SaslHandshakeRequest.overAt v 1 · t0) _)
theorem SaslHandshakeRequest.reusable : SaslHandshakeRequest.reuse.Holds SaslHandshakeRequest.layout where
  decode v t0 d := by
    have h := SaslHandshakeRequest.sim v t0 {} d
    have e : SaslHandshakeRequest.overAt v 0 {} t0 = t0 := by first | rfl | (simp only [SaslHandshakeRequest.overAt, upto_zero, Option.none_or, ite_self] <;> rfl)
    simp only [e] at h
    exact h
  same v y t0 _h := rfl
  stale _ _ h := h.elim

/-- What `t0` becomes where a new `SaslHandshakeResponse` becomes `y`. -/
def SaslHandshakeResponse.over (_version : Int16) (y _t0 : SaslHandshakeResponse) : SaslHandshakeResponse :=
  { ErrorCode := y.ErrorCode,
    Mechanisms := y.Mechanisms }

/-- An array of structures is nil. -/
def SaslHandshakeResponse.Nulls (_version : Int16) (_y : SaslHandshakeResponse) : Prop :=
  False

/-- `SaslHandshakeResponse` in use again. -/
def SaslHandshakeResponse.reuse : Reuse SaslHandshakeResponse.type := { over := SaslHandshakeResponse.over, Nulls := SaslHandshakeResponse.Nulls }

/-- The same after the first `k` statements of `Decode`. -/
def SaslHandshakeResponse.overAt (_version : Int16) (k : Nat) (y t0 : SaslHandshakeResponse) : SaslHandshakeResponse :=
  { ErrorCode := upto k 0 (y.ErrorCode) t0.ErrorCode,
    Mechanisms := upto k 1 (y.Mechanisms) t0.Mechanisms }

theorem SaslHandshakeResponse.sim (v : Int16) (t0 : SaslHandshakeResponse) : Sim (SaslHandshakeResponse.overAt v 0 · t0) (SaslHandshakeResponse.overAt v 2 · t0) (SaslHandshakeResponse.decode v) :=
  ((.field fun _ _ => rfl) : Sim (SaslHandshakeResponse.overAt v 0 · t0) (SaslHandshakeResponse.overAt v 1 · t0) _)
    |>.andThen ((.field fun _ _ => rfl) : Sim (SaslHandshakeResponse.overAt v 1 · t0) (SaslHandshakeResponse.overAt v 2 · t0) _)
theorem SaslHandshakeResponse.reusable : SaslHandshakeResponse.reuse.Holds SaslHandshakeResponse.layout where
  decode v t0 d := by
    have h := SaslHandshakeResponse.sim v t0 {} d
    have e : SaslHandshakeResponse.overAt v 0 {} t0 = t0 := by first | rfl | (simp only [SaslHandshakeResponse.overAt, upto_zero, Option.none_or, ite_self] <;> rfl)
    simp only [e] at h
    exact h
  same v y t0 _h := (app_congr rfl rfl)
  stale _ _ h := h.elim

/-- The structures of the SaslHandshake messages. -/
def reuseSaslHandshake : List (Σ (M : MsgType) (_ : Layout M), Reuse M) :=
  [⟨SaslHandshakeRequest.type, SaslHandshakeRequest.layout, SaslHandshakeRequest.reuse⟩,
   ⟨SaslHandshakeResponse.type, SaslHandshakeResponse.layout, SaslHandshakeResponse.reuse⟩]
theorem reuseSaslHandshake_holds : ∀ p ∈ reuseSaslHandshake, p.2.2.Holds p.2.1 := by
  unfold reuseSaslHandshake
  simp only [List.forall_mem_cons]
  exact ⟨SaslHandshakeRequest.reusable, SaslHandshakeResponse.reusable, fun _ h => absurd h (by simp)⟩

end Kafka.Msg
