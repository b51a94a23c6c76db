import Verif.Message.Reuse
import Verif.Gen.Spec.CreateDelegationToken
/-!
Generated by tools/gen_messages.py: decoding into CreateDelegationToken messages used before.
-/
set_option linter.unusedSimpArgs false
set_option linter.unusedVariables false
namespace Kafka.Msg

/-- What `t0` becomes where a new `CreatableRenewers38` becomes `y`. -/
def CreatableRenewers38.over (_version : Int16) (y _t0 : CreatableRenewers38) : CreatableRenewers38 :=
  { PrincipalType := y.PrincipalType,
    PrincipalName := y.PrincipalName }

/-- An array of structures is nil. -/
def CreatableRenewers38.Nulls (_version : Int16) (_y : CreatableRenewers38) : Prop :=
  False

/-- `CreatableRenewers38` in use again. -/
def CreatableRenewers38.reuse : Reuse CreatableRenewers38.type := { over := CreatableRenewers38.over, Nulls := CreatableRenewers38.Nulls }

/-- The same after the first `k` statements of `Decode`. -/
def CreatableRenewers38.overAt (_version : Int16) (k : Nat) (y t0 : CreatableRenewers38) : CreatableRenewers38 :=
  { PrincipalType := upto k 0 (y.PrincipalType) t0.PrincipalType,
    PrincipalName := upto k 1 (y.PrincipalName) t0.PrincipalName }

theorem CreatableRenewers38.sim (v : Int16) (t0 : CreatableRenewers38) : Sim (CreatableRenewers38.overAt v 0 · t0) (CreatableRenewers38.overAt v 2 · t0) (CreatableRenewers38.decode v) :=
  ((.field fun _ _ => rfl) : Sim (CreatableRenewers38.overAt v 0 · t0) (CreatableRenewers38.overAt v 1 · t0) _)
    |>.andThen ((.field fun _ _ => rfl) : Sim (CreatableRenewers38.overAt v 1 · t0) (CreatableRenewers38.overAt v 2 · t0) _)
theorem CreatableRenewers38.reusable : CreatableRenewers38.reuse.Holds CreatableRenewers38.layout where
  decode v t0 d := by
    have h := CreatableRenewers38.sim v t0 {} d
    have e : CreatableRenewers38.overAt v 0 {} t0 = t0 := by first | rfl | (simp only [CreatableRenewers38.overAt, upto_zero, Option.none_or, ite_self] <;> rfl)
    simp only [e] at h
    exact h
  same v y t0 _h := (app_congr rfl rfl)
  stale _ _ h := h.elim

/-- What `t0` becomes where a new `CreateDelegationTokenRequest` becomes `y`. -/
def CreateDelegationTokenRequest.over (_version : Int16) (y t0 : CreateDelegationTokenRequest) : CreateDelegationTokenRequest :=
  { Renewers := y.Renewers.or t0.Renewers,
    MaxLifetimeMs := y.MaxLifetimeMs }

/-- An array of structures is nil. -/
def CreateDelegationTokenRequest.Nulls (_version : Int16) (y : CreateDelegationTokenRequest) : Prop :=
  y.Renewers = none

/-- `CreateDelegationTokenRequest` in use again. -/
def CreateDelegationTokenRequest.reuse : Reuse CreateDelegationTokenRequest.type := { over := CreateDelegationTokenRequest.over, Nulls := CreateDelegationTokenRequest.Nulls }

/-- The same after the first `k` statements of `Decode`. -/
def CreateDelegationTokenRequest.overAt (_version : Int16) (k : Nat) (y t0 : CreateDelegationTokenRequest) : CreateDelegationTokenRequest :=
  { Renewers := y.Renewers.or t0.Renewers,
    MaxLifetimeMs := upto k 1 (y.MaxLifetimeMs) t0.MaxLifetimeMs }

theorem CreateDelegationTokenRequest.sim (v : Int16) (t0 : CreateDelegationTokenRequest) : Sim (CreateDelegationTokenRequest.overAt v 0 · t0) (CreateDelegationTokenRequest.overAt v 2 · t0) (CreateDelegationTokenRequest.decode v) :=
  ((.structs (fun _ _ => rfl) fun _ => rfl) : Sim (CreateDelegationTokenRequest.overAt v 0 · t0) (CreateDelegationTokenRequest.overAt v 1 · t0) _)
    |>.andThen ((.field fun _ _ => rfl) : Sim (CreateDelegationTokenRequest.overAt v 1 · t0) (CreateDelegationTokenRequest.overAt v 2 · t0) _)
theorem CreateDelegationTokenRequest.reusable : CreateDelegationTokenRequest.reuse.Holds CreateDelegationTokenRequest.layout where
  decode v t0 d := by
    have h := CreateDelegationTokenRequest.sim v t0 {} d
    have e : CreateDelegationTokenRequest.overAt v 0 {} t0 = t0 := by first | rfl | (simp only [CreateDelegationTokenRequest.overAt, upto_zero, Option.none_or, ite_self] <;> rfl)
    simp only [e] at h
    exact h
  same v y t0 h := (app_congr (same_or fun hn => h (hn)) rfl)
  stale v y h := by
    obtain h := h
    · exact ⟨({ Renewers := some [{}] } : CreateDelegationTokenRequest), (app_ne_left (stale_or h) rfl)⟩

/-- What `t0` becomes where a new `CreateDelegationTokenResponse` becomes `y`. -/
def CreateDelegationTokenResponse.over (_version : Int16) (y _t0 : CreateDelegationTokenResponse) : CreateDelegationTokenResponse :=
  { ErrorCode := y.ErrorCode,
    PrincipalType := y.PrincipalType,
    PrincipalName := y.PrincipalName,
    IssueTimestampMs := y.IssueTimestampMs,
    ExpiryTimestampMs := y.ExpiryTimestampMs,
    MaxTimestampMs := y.MaxTimestampMs,
    TokenId := y.TokenId,
    Hmac := y.Hmac,
    ThrottleTimeMs := y.ThrottleTimeMs }

/-- An array of structures is nil. -/
def CreateDelegationTokenResponse.Nulls (_version : Int16) (_y : CreateDelegationTokenResponse) : Prop :=
  False

/-- `CreateDelegationTokenResponse` in use again. -/
def CreateDelegationTokenResponse.reuse : Reuse CreateDelegationTokenResponse.type := { over := CreateDelegationTokenResponse.over, Nulls := CreateDelegationTokenResponse.Nulls }

/-- The same after the first `k` statements of `Decode`. -/
def CreateDelegationTokenResponse.overAt (_version : Int16) (k : Nat) (y t0 : CreateDelegationTokenResponse) : CreateDelegationTokenResponse :=
  { ErrorCode := upto k 0 (y.ErrorCode) t0.ErrorCode,
    PrincipalType := upto k 1 (y.PrincipalType) t0.PrincipalType,
    PrincipalName := upto k 2 (y.PrincipalName) t0.PrincipalName,
    IssueTimestampMs := upto k 3 (y.IssueTimestampMs) t0.IssueTimestampMs,
    ExpiryTimestampMs := upto k 4 (y.ExpiryTimestampMs) t0.ExpiryTimestampMs,
    MaxTimestampMs := upto k 5 (y.MaxTimestampMs) t0.MaxTimestampMs,
    TokenId := upto k 6 (y.TokenId) t0.TokenId,
    Hmac := upto k 7 (y.Hmac) t0.Hmac,
    ThrottleTimeMs := upto k 8 (y.ThrottleTimeMs) t0.ThrottleTimeMs }

theorem CreateDelegationTokenResponse.sim (v : Int16) (t0 : CreateDelegationTokenResponse) : Sim (CreateDelegationTokenResponse.overAt v 0 · t0) (CreateDelegationTokenResponse.overAt v 9 · t0) (CreateDelegationTokenResponse.decode v) :=
  ((.field fun _ _ => rfl) : Sim (CreateDelegationTokenResponse.overAt v 0 · t0) (CreateDelegationTokenResponse.overAt v 1 · t0) _)
    |>.andThen ((.field fun _ _ => rfl) : Sim (CreateDelegationTokenResponse.overAt v 1 · t0) (CreateDelegationTokenResponse.overAt v 2 · t0) _)
    |>.andThen ((.field fun _ _ => rfl) : Sim (CreateDelegationTokenResponse.overAt v 2 · t0) (CreateDelegationTokenResponse.overAt v 3 · t0) _)
    |>.andThen ((.field fun _ _ => rfl) : Sim (CreateDelegationTokenResponse.overAt v 3 · t0) (CreateDelegationTokenResponse.overAt v 4 · t0) _)
    |>.andThen ((.field fun _ _ => rfl) : Sim (CreateDelegationTokenResponse.overAt v 4 · t0) (CreateDelegationTokenResponse.overAt v 5 · t0) _)
    |>.andThen ((.field fun _ _ => rfl) : Sim (CreateDelegationTokenResponse.overAt v 5 · t0) (CreateDelegationTokenResponse.overAt v 6 · t0) _)
    |>.andThen ((.field fun _ _ => rfl) : Sim (CreateDelegationTokenResponse.overAt v 6 · t0) (CreateDelegationTokenResponse.overAt v 7 · t0) _)
    |>.andThen ((.field fun _ _ => rfl) : Sim (CreateDelegationTokenResponse.overAt v 7 · t0) (CreateDelegationTokenResponse.overAt v 8 · t0) _)
    |>.andThen ((.field fun _ _ => rfl) : Sim (CreateDelegationTokenResponse.overAt v 8 · t0) (CreateDelegationTokenResponse.overAt v 9 · t0) _)
theorem CreateDelegationTokenResponse.reusable : CreateDelegationTokenResponse.reuse.Holds CreateDelegationTokenResponse.layout where
  decode v t0 d := by
    have h := CreateDelegationTokenResponse.sim v t0 {} d
    have e : CreateDelegationTokenResponse.overAt v 0 {} t0 = t0 := by first | rfl | (simp only [CreateDelegationTokenResponse.overAt, upto_zero, Option.none_or, ite_self] <;> rfl)
    simp only [e] at h
    exact h
  same v y t0 _h := (app_congr (app_congr (app_congr (app_congr (app_congr (app_congr (app_congr (app_congr rfl rfl) rfl) rfl) rfl) rfl) rfl) rfl) rfl)
  stale _ _ h := h.elim

/-- The structures of the CreateDelegationToken messages. -/
def reuseCreateDelegationToken : List (Σ (M : MsgType) (_ : Layout M), Reuse M) :=
  [⟨CreateDelegationTokenRequest.type, CreateDelegationTokenRequest.layout, CreateDelegationTokenRequest.reuse⟩,
   ⟨CreatableRenewers38.type, CreatableRenewers38.layout, CreatableRenewers38.reuse⟩,
   ⟨CreateDelegationTokenResponse.type, CreateDelegationTokenResponse.layout, CreateDelegationTokenResponse.reuse⟩]
theorem reuseCreateDelegationToken_holds : ∀ p ∈ reuseCreateDelegationToken, p.2.2.Holds p.2.1 := by
  unfold reuseCreateDelegationToken
  simp only [List.forall_mem_cons]
  exact ⟨CreateDelegationTokenRequest.reusable, CreatableRenewers38.reusable, CreateDelegationTokenResponse.reusable, fun _ h => absurd h (by simp)⟩

end Kafka.Msg
