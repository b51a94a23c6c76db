import Verif.Message.Reuse
import Verif.Gen.Spec.DescribeDelegationToken
/-!
Generated by tools/gen_messages.py: decoding into DescribeDelegationToken messages used before.
-/
set_option linter.unusedSimpArgs false
set_option linter.unusedVariables false
namespace Kafka.Msg

/-- What `t0` becomes where a new `DescribeDelegationTokenOwner41` becomes `y`. -/
def DescribeDelegationTokenOwner41.over (_version : Int16) (y _t0 : DescribeDelegationTokenOwner41) : DescribeDelegationTokenOwner41 :=
  { PrincipalType := y.PrincipalType,
    PrincipalName := y.PrincipalName }

/-- An array of structures is nil. -/
def DescribeDelegationTokenOwner41.Nulls (_version : Int16) (_y : DescribeDelegationTokenOwner41) : Prop :=
  False

/-- `DescribeDelegationTokenOwner41` in use again. -/
def DescribeDelegationTokenOwner41.reuse : Reuse DescribeDelegationTokenOwner41.type := { over := DescribeDelegationTokenOwner41.over, Nulls := DescribeDelegationTokenOwner41.Nulls }

/-- The same after the first `k` statements of `Decode`. -/
def DescribeDelegationTokenOwner41.overAt (_version : Int16) (k : Nat) (y t0 : DescribeDelegationTokenOwner41) : DescribeDelegationTokenOwner41 :=
  { PrincipalType := upto k 0 (y.PrincipalType) t0.PrincipalType,
    PrincipalName := upto k 1 (y.PrincipalName) t0.PrincipalName }

theorem DescribeDelegationTokenOwner41.sim (v : Int16) (t0 : DescribeDelegationTokenOwner41) : Sim (DescribeDelegationTokenOwner41.overAt v 0 · t0) (DescribeDelegationTokenOwner41.overAt v 2 · t0) (DescribeDelegationTokenOwner41.decode v) :=
  ((.field fun _ _ => rfl) : Sim (DescribeDelegationTokenOwner41.overAt v 0 · t0) (DescribeDelegationTokenOwner41.overAt v 1 · t0) _)
    |>.andThen ((.field fun _ _ => rfl) : Sim (DescribeDelegationTokenOwner41.overAt v 1 · t0) (DescribeDelegationTokenOwner41.overAt v 2 · t0) _)
theorem DescribeDelegationTokenOwner41.reusable : DescribeDelegationTokenOwner41.reuse.Holds DescribeDelegationTokenOwner41.layout where
  decode v t0 d := by
    have h := DescribeDelegationTokenOwner41.sim v t0 {} d
    have e : DescribeDelegationTokenOwner41.overAt v 0 {} t0 = t0 := by first | rfl | (simp only [DescribeDelegationTokenOwner41.overAt, upto_zero, Option.none_or, ite_self] <;> rfl)
    simp only [e] at h
    exact h
  same v y t0 _h := (app_congr rfl rfl)
  stale _ _ h := h.elim

/-- What `t0` becomes where a new `DescribeDelegationTokenRequest` becomes `y`. -/
def DescribeDelegationTokenRequest.over (_version : Int16) (y t0 : DescribeDelegationTokenRequest) : DescribeDelegationTokenRequest :=
  { Owners := y.Owners.or t0.Owners }

/-- An array of structures is nil. -/
def DescribeDelegationTokenRequest.Nulls (_version : Int16) (y : DescribeDelegationTokenRequest) : Prop :=
  y.Owners = none

/-- `DescribeDelegationTokenRequest` in use again. -/
def DescribeDelegationTokenRequest.reuse : Reuse DescribeDelegationTokenRequest.type := { over := DescribeDelegationTokenRequest.over, Nulls := DescribeDelegationTokenRequest.Nulls }

/-- The same after the first `k` statements of `Decode`. -/
def DescribeDelegationTokenRequest.overAt (_version : Int16) (_k : Nat) (y t0 : DescribeDelegationTokenRequest) : DescribeDelegationTokenRequest :=
  { Owners := y.Owners.or t0.Owners }

theorem DescribeDelegationTokenRequest.sim (v : Int16) (t0 : DescribeDelegationTokenRequest) : Sim (DescribeDelegationTokenRequest.overAt v 0 · t0) (DescribeDelegationTokenRequest.overAt v 1 · t0) (DescribeDelegationTokenRequest.decode v) :=
  ((.structs (fun _ _ => rfl) fun _ => rfl) : Sim (DescribeDelegationTokenRequest.overAt v 0 · t0) (DescribeDelegationTokenRequest.overAt v 1 · t0) _)
theorem DescribeDelegationTokenRequest.reusable : DescribeDelegationTokenRequest.reuse.Holds DescribeDelegationTokenRequest.layout where
  decode v t0 d := by
    have h := DescribeDelegationTokenRequest.sim v t0 {} d
    have e : DescribeDelegationTokenRequest.overAt v 0 {} t0 = t0 := by first | rfl | (simp only [DescribeDelegationTokenRequest.overAt, upto_zero, Option.none_or, ite_self] <;> rfl)
    simp only [e] at h
    exact h
  same v y t0 h := (same_or fun hn => h (hn))
  stale v y h := by
    obtain h := h
    · exact ⟨({ Owners := some [{}] } : DescribeDelegationTokenRequest), (stale_or h)⟩

/-- What `t0` becomes where a new `DescribedDelegationTokenRenewer41` becomes `y`. -/
def DescribedDelegationTokenRenewer41.over (_version : Int16) (y _t0 : DescribedDelegationTokenRenewer41) : DescribedDelegationTokenRenewer41 :=
  { PrincipalType := y.PrincipalType,
    PrincipalName := y.PrincipalName }

/-- An array of structures is nil. -/
def DescribedDelegationTokenRenewer41.Nulls (_version : Int16) (_y : DescribedDelegationTokenRenewer41) : Prop :=
  False

/-- `DescribedDelegationTokenRenewer41` in use again. -/
def DescribedDelegationTokenRenewer41.reuse : Reuse DescribedDelegationTokenRenewer41.type := { over := DescribedDelegationTokenRenewer41.over, Nulls := DescribedDelegationTokenRenewer41.Nulls }

/-- The same after the first `k` statements of `Decode`. -/
def DescribedDelegationTokenRenewer41.overAt (_version : Int16) (k : Nat) (y t0 : DescribedDelegationTokenRenewer41) : DescribedDelegationTokenRenewer41 :=
  { PrincipalType := upto k 0 (y.PrincipalType) t0.PrincipalType,
    PrincipalName := upto k 1 (y.PrincipalName) t0.PrincipalName }

theorem DescribedDelegationTokenRenewer41.sim (v : Int16) (t0 : DescribedDelegationTokenRenewer41) : Sim (DescribedDelegationTokenRenewer41.overAt v 0 · t0) (DescribedDelegationTokenRenewer41.overAt v 2 · t0) (DescribedDelegationTokenRenewer41.decode v) :=
  ((.field fun _ _ => rfl) : Sim (DescribedDelegationTokenRenewer41.overAt v 0 · t0) (DescribedDelegationTokenRenewer41.overAt v 1 · t0) _)
    |>.andThen ((.field fun _ _ => rfl) : Sim (DescribedDelegationTokenRenewer41.overAt v 1 · t0) (DescribedDelegationTokenRenewer41.overAt v 2 · t0) _)
theorem DescribedDelegationTokenRenewer41.reusable : DescribedDelegationTokenRenewer41.reuse.Holds DescribedDelegationTokenRenewer41.layout where
  decode v t0 d := by
    have h := DescribedDelegationTokenRenewer41.sim v t0 {} d
    have e : DescribedDelegationTokenRenewer41.overAt v 0 {} t0 = t0 := by first | rfl | (simp only [DescribedDelegationTokenRenewer41.overAt, upto_zero, Option.none_or, ite_self] <;> rfl)
    simp only [e] at h
    exact h
  same v y t0 _h := (app_congr rfl rfl)
  stale _ _ h := h.elim

/-- What `t0` becomes where a new `DescribedDelegationToken41` becomes `y`. -/
def DescribedDelegationToken41.over (_version : Int16) (y t0 : DescribedDelegationToken41) : DescribedDelegationToken41 :=
  { PrincipalType := y.PrincipalType,
    PrincipalName := y.PrincipalName,
    IssueTimestamp := y.IssueTimestamp,
    ExpiryTimestamp := y.ExpiryTimestamp,
    MaxTimestamp := y.MaxTimestamp,
    TokenId := y.TokenId,
    Hmac := y.Hmac,
    Renewers := y.Renewers.or t0.Renewers }

/-- An array of structures is nil. -/
def DescribedDelegationToken41.Nulls (_version : Int16) (y : DescribedDelegationToken41) : Prop :=
  y.Renewers = none

/-- `DescribedDelegationToken41` in use again. -/
def DescribedDelegationToken41.reuse : Reuse DescribedDelegationToken41.type := { over := DescribedDelegationToken41.over, Nulls := DescribedDelegationToken41.Nulls }

/-- The same after the first `k` statements of `Decode`. -/
def DescribedDelegationToken41.overAt (_version : Int16) (k : Nat) (y t0 : DescribedDelegationToken41) : DescribedDelegationToken41 :=
  { PrincipalType := upto k 0 (y.PrincipalType) t0.PrincipalType,
    PrincipalName := upto k 1 (y.PrincipalName) t0.PrincipalName,
    IssueTimestamp := upto k 2 (y.IssueTimestamp) t0.IssueTimestamp,
    ExpiryTimestamp := upto k 3 (y.ExpiryTimestamp) t0.ExpiryTimestamp,
    MaxTimestamp := upto k 4 (y.MaxTimestamp) t0.MaxTimestamp,
    TokenId := upto k 5 (y.TokenId) t0.TokenId,
    Hmac := upto k 6 (y.Hmac) t0.Hmac,
    Renewers := y.Renewers.or t0.Renewers }

theorem DescribedDelegationToken41.sim (v : Int16) (t0 : DescribedDelegationToken41) : Sim (DescribedDelegationToken41.overAt v 0 · t0) (DescribedDelegationToken41.overAt v 8 · t0) (DescribedDelegationToken41.decode v) :=
  ((.field fun _ _ => rfl) : Sim (DescribedDelegationToken41.overAt v 0 · t0) (DescribedDelegationToken41.overAt v 1 · t0) _)
    |>.andThen ((.field fun _ _ => rfl) : Sim (DescribedDelegationToken41.overAt v 1 · t0) (DescribedDelegationToken41.overAt v 2 · t0) _)
    |>.andThen ((.field fun _ _ => rfl) : Sim (DescribedDelegationToken41.overAt v 2 · t0) (DescribedDelegationToken41.overAt v 3 · t0) _)
    |>.andThen ((.field fun _ _ => rfl) : Sim (DescribedDelegationToken41.overAt v 3 · t0) (DescribedDelegationToken41.overAt v 4 · t0) _)
    |>.andThen ((.field fun _ _ => rfl) : Sim (DescribedDelegationToken41.overAt v 4 · t0) (DescribedDelegationToken41.overAt v 5 · t0) _)
    |>.andThen ((.field fun _ _ => rfl) : Sim (DescribedDelegationToken41.overAt v 5 · t0) (DescribedDelegationToken41.overAt v 6 · t0) _)
    |>.andThen ((.field fun _ _ => rfl) : Sim (DescribedDelegationToken41.overAt v 6 · t0) (DescribedDelegationToken41.overAt v 7 · t0) _)
    |>.andThen ((.structs (fun _ _ => rfl) fun _ => rfl) : Sim (DescribedDelegationToken41.overAt v 7 · t0) (DescribedDelegationToken41.overAt v 8 · t0) _)
theorem DescribedDelegationToken41.reusable : DescribedDelegationToken41.reuse.Holds DescribedDelegationToken41.layout where
  decode v t0 d := by
    have h := DescribedDelegationToken41.sim v t0 {} d
    have e : DescribedDelegationToken41.overAt v 0 {} t0 = t0 := by first | rfl | (simp only [DescribedDelegationToken41.overAt, upto_zero, Option.none_or, ite_self] <;> rfl)
    simp only [e] at h
    exact h
  same v y t0 h := (app_congr (app_congr (app_congr (app_congr (app_congr (app_congr (app_congr rfl rfl) rfl) rfl) rfl) rfl) rfl) (same_or fun hn => h (hn)))
  stale v y h := by
    obtain h := h
    · exact ⟨({ Renewers := some [{}] } : DescribedDelegationToken41), (app_ne_right (app_congr (app_congr (app_congr (app_congr (app_congr (app_congr rfl rfl) rfl) rfl) rfl) rfl) rfl) (stale_or h))⟩

/-- What `t0` becomes where a new `DescribeDelegationTokenResponse` becomes `y`. -/
def DescribeDelegationTokenResponse.over (_version : Int16) (y t0 : DescribeDelegationTokenResponse) : DescribeDelegationTokenResponse :=
  { ErrorCode := y.ErrorCode,
    Tokens := y.Tokens.or t0.Tokens,
    ThrottleTimeMs := y.ThrottleTimeMs }

/-- An array of structures is nil. -/
def DescribeDelegationTokenResponse.Nulls (_version : Int16) (y : DescribeDelegationTokenResponse) : Prop :=
  y.Tokens = none

/-- `DescribeDelegationTokenResponse` in use again. -/
def DescribeDelegationTokenResponse.reuse : Reuse DescribeDelegationTokenResponse.type := { over := DescribeDelegationTokenResponse.over, Nulls := DescribeDelegationTokenResponse.Nulls }

/-- The same after the first `k` statements of `Decode`. -/
def DescribeDelegationTokenResponse.overAt (_version : Int16) (k : Nat) (y t0 : DescribeDelegationTokenResponse) : DescribeDelegationTokenResponse :=
  { ErrorCode := upto k 0 (y.ErrorCode) t0.ErrorCode,
    Tokens := y.Tokens.or t0.Tokens,
    ThrottleTimeMs := upto k 2 (y.ThrottleTimeMs) t0.ThrottleTimeMs }

theorem DescribeDelegationTokenResponse.sim (v : Int16) (t0 : DescribeDelegationTokenResponse) : Sim (DescribeDelegationTokenResponse.overAt v 0 · t0) (DescribeDelegationTokenResponse.overAt v 3 · t0) (DescribeDelegationTokenResponse.decode v) :=
  ((.field fun _ _ => rfl) : Sim (DescribeDelegationTokenResponse.overAt v 0 · t0) (DescribeDelegationTokenResponse.overAt v 1 · t0) _)
    |>.andThen ((.structs (fun _ _ => rfl) fun _ => rfl) : Sim (DescribeDelegationTokenResponse.overAt v 1 · t0) (DescribeDelegationTokenResponse.overAt v 2 · t0) _)
    |>.andThen ((.field fun _ _ => rfl) : Sim (DescribeDelegationTokenResponse.overAt v 2 · t0) (DescribeDelegationTokenResponse.overAt v 3 · t0) _)
theorem DescribeDelegationTokenResponse.reusable : DescribeDelegationTokenResponse.reuse.Holds DescribeDelegationTokenResponse.layout where
  decode v t0 d := by
    have h := DescribeDelegationTokenResponse.sim v t0 {} d
    have e : DescribeDelegationTokenResponse.overAt v 0 {} t0 = t0 := by first | rfl | (simp only [DescribeDelegationTokenResponse.overAt, upto_zero, Option.none_or, ite_self] <;> rfl)
    simp only [e] at h
    exact h
  same v y t0 h := (app_congr (app_congr rfl (same_or fun hn => h (hn))) rfl)
  stale v y h := by
    obtain h := h
    · exact ⟨({ Tokens := some [{}] } : DescribeDelegationTokenResponse), (app_ne_left (app_ne_right rfl (stale_or h)) rfl)⟩

/-- The structures of the DescribeDelegationToken messages. -/
def reuseDescribeDelegationToken : List (Σ (M : MsgType) (_ : Layout M), Reuse M) :=
  [⟨DescribeDelegationTokenRequest.type, DescribeDelegationTokenRequest.layout, DescribeDelegationTokenRequest.reuse⟩,
   ⟨DescribeDelegationTokenOwner41.type, DescribeDelegationTokenOwner41.layout, DescribeDelegationTokenOwner41.reuse⟩,
   ⟨DescribeDelegationTokenResponse.type, DescribeDelegationTokenResponse.layout, DescribeDelegationTokenResponse.reuse⟩,
   ⟨DescribedDelegationToken41.type, DescribedDelegationToken41.layout, DescribedDelegationToken41.reuse⟩,
   ⟨DescribedDelegationTokenRenewer41.type, DescribedDelegationTokenRenewer41.layout, DescribedDelegationTokenRenewer41.reuse⟩]
theorem reuseDescribeDelegationToken_holds : ∀ p ∈ reuseDescribeDelegationToken, p.2.2.Holds p.2.1 := by
  unfold reuseDescribeDelegationToken
  simp only [List.forall_mem_cons]
  exact ⟨DescribeDelegationTokenRequest.reusable, DescribeDelegationTokenOwner41.reusable, DescribeDelegationTokenResponse.reusable, DescribedDelegationToken41.reusable, DescribedDelegationTokenRenewer41.reusable, fun _ h => absurd h (by simp)⟩

end Kafka.Msg
