import Verif.Message.Reuse
import Verif.Gen.Spec.SaslAuthenticate
/-!
Generated by tools/gen_messages.py: decoding into SaslAuthenticate messages used before.
-/
set_option linter.unusedSimpArgs false
set_option linter.unusedVariables false
namespace Kafka.Msg

/-- What `t0` becomes where a new `SaslAuthenticateRequest` becomes `y`. -/
def SaslAuthenticateRequest.over (_version : Int16) (y _t0 : SaslAuthenticateRequest) : SaslAuthenticateRequest :=
  { AuthBytes := y.AuthBytes }

/-- An array of structures is nil. -/
def SaslAuthenticateRequest.Nulls (_version : Int16) (_y : SaslAuthenticateRequest) : Prop :=
  False

/-- `SaslAuthenticateRequest` in use again. -/
def SaslAuthenticateRequest.reuse : Reuse SaslAuthenticateRequest.type := { over := SaslAuthenticateRequest.over, Nulls := SaslAuthenticateRequest.Nulls }

/-- The same after the first `k` statements of `Decode`. -/
def SaslAuthenticateRequest.overAt (_version : Int16) (k : Nat) (y t0 : SaslAuthenticateRequest) : SaslAuthenticateRequest :=
  { AuthBytes := upto k 0 (y.AuthBytes) t0.AuthBytes }

theorem SaslAuthenticateRequest.sim (v : Int16) (t0 : SaslAuthenticateRequest) : Sim (SaslAuthenticateRequest.overAt v 0 · t0) (SaslAuthenticateRequest.overAt v 1 · t0) (SaslAuthenticateRequest.decode v) :=
  ((.field fun _ _ => rfl) : Sim (SaslAuthenticateRequest.overAt v 0 · t0) (SaslAuthenticateRequest.overAt v 1 · t0) _)
theorem SaslAuthenticateRequest.reusable : SaslAuthenticateRequest.reuse.Holds SaslAuthenticateRequest.layout where
  decode v t0 d := by
    have h := SaslAuthenticateRequest.sim v t0 {} d
    have e : SaslAuthenticateRequest.overAt v 0 {} t0 = t0 := by first | rfl | (simp only [SaslAuthenticateRequest.overAt, upto_zero, Option.none_or, ite_self] <;> rfl)
    simp only [e] at h
    exact h
  same v y t0 _h := rfl
  stale _ _ h := h.elim

/-- What `t0` becomes where a new `SaslAuthenticateResponse` becomes `y`. -/
def SaslAuthenticateResponse.over (version : Int16) (y t0 : SaslAuthenticateResponse) : SaslAuthenticateResponse :=
  { ErrorCode := y.ErrorCode,
    ErrorMessage := y.ErrorMessage,
    AuthBytes := y.AuthBytes,
    SessionLifetimeMs := if version ≥ 1 then y.SessionLifetimeMs else t0.SessionLifetimeMs }

/-- An array of structures is nil. -/
def SaslAuthenticateResponse.Nulls (_version : Int16) (_y : SaslAuthenticateResponse) : Prop :=
  False

/-- `SaslAuthenticateResponse` in use again. -/
def SaslAuthenticateResponse.reuse : Reuse SaslAuthenticateResponse.type := { over := SaslAuthenticateResponse.over, Nulls := SaslAuthenticateResponse.Nulls }

/-- The same after the first `k` statements of `Decode`. -/
def SaslAuthenticateResponse.overAt (version : Int16) (k : Nat) (y t0 : SaslAuthenticateResponse) : SaslAuthenticateResponse :=
  { ErrorCode := upto k 0 (y.ErrorCode) t0.ErrorCode,
    ErrorMessage := upto k 1 (y.ErrorMessage) t0.ErrorMessage,
    AuthBytes := upto k 2 (y.AuthBytes) t0.AuthBytes,
    SessionLifetimeMs := upto k 3 (if version ≥ 1 then y.SessionLifetimeMs else t0.SessionLifetimeMs) t0.SessionLifetimeMs }

theorem SaslAuthenticateResponse.sim (v : Int16) (t0 : SaslAuthenticateResponse) : Sim (SaslAuthenticateResponse.overAt v 0 · t0) (SaslAuthenticateResponse.overAt v 4 · t0) (SaslAuthenticateResponse.decode v) :=
  ((.field fun _ _ => rfl) : Sim (SaslAuthenticateResponse.overAt v 0 · t0) (SaslAuthenticateResponse.overAt v 1 · t0) _)
    |>.andThen ((.field fun _ _ => rfl) : Sim (SaslAuthenticateResponse.overAt v 1 · t0) (SaslAuthenticateResponse.overAt v 2 · t0) _)
    |>.andThen ((.field fun _ _ => rfl) : Sim (SaslAuthenticateResponse.overAt v 2 · t0) (SaslAuthenticateResponse.overAt v 3 · t0) _)
    |>.andThen ((.onlyIf (fun hc => .field fun _ _ => by simp only [SaslAuthenticateResponse.overAt, if_pos hc]; rfl) fun hc _ => by simp only [SaslAuthenticateResponse.overAt, if_neg hc]; rfl) : Sim (SaslAuthenticateResponse.overAt v 3 · t0) (SaslAuthenticateResponse.overAt v 4 · t0) _)
theorem SaslAuthenticateResponse.reusable : SaslAuthenticateResponse.reuse.Holds SaslAuthenticateResponse.layout where
  decode v t0 d := by
    have h := SaslAuthenticateResponse.sim v t0 {} d
    have e : SaslAuthenticateResponse.overAt v 0 {} t0 = t0 := by first | rfl | (simp only [SaslAuthenticateResponse.overAt, upto_zero, Option.none_or, ite_self] <;> rfl)
    simp only [e] at h
    exact h
  same v y t0 _h := (app_congr (app_congr (app_congr rfl rfl) rfl) (again_opt Wire.int64 y.SessionLifetimeMs t0.SessionLifetimeMs))
  stale _ _ h := h.elim

/-- The structures of the SaslAuthenticate messages. -/
def reuseSaslAuthenticate : List (Σ (M : MsgType) (_ : Layout M), Reuse M) :=
  [⟨SaslAuthenticateRequest.type, SaslAuthenticateRequest.layout, SaslAuthenticateRequest.reuse⟩,
   ⟨SaslAuthenticateResponse.type, SaslAuthenticateResponse.layout, SaslAuthenticateResponse.reuse⟩]
theorem reuseSaslAuthenticate_holds : ∀ p ∈ reuseSaslAuthenticate, p.2.2.Holds p.2.1 := by
  unfold reuseSaslAuthenticate
  simp only [List.forall_mem_cons]
  exact ⟨SaslAuthenticateRequest.reusable, SaslAuthenticateResponse.reusable, fun _ h => absurd h (by simp)⟩

end Kafka.Msg
