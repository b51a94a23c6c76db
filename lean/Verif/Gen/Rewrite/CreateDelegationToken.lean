import Verif.Message.Rewrites
import Verif.Gen.Kept.CreateDelegationToken
import Verif.Gen.All
/-!
Generated by tools/gen_messages.py: encoding CreateDelegationToken messages that were decoded.
-/
namespace Kafka.Msg

theorem CreatableRenewers38.rewrites (version : Int16) : Rewrites (CreatableRenewers38.decode version {}) (CreatableRenewers38.wire version) (CreatableRenewers38.Fits version) :=
  ((.field (get := fun (t : CreatableRenewers38) => t.PrincipalType) (set := fun (t : CreatableRenewers38) x => { t with PrincipalType := x }) .string (fun _ => rfl) (fun _ => rfl) (fun _ _ => rfl) (fun _ _ => rfl) (fun _ _ => rfl) : RewriteStep _ (CreatableRenewers38.first 0) (CreatableRenewers38.first 1) _ _)
    |>.andThen (.field (get := fun (t : CreatableRenewers38) => t.PrincipalName) (set := fun (t : CreatableRenewers38) x => { t with PrincipalName := x }) .string (fun _ => rfl) (fun _ => rfl) (fun _ _ => rfl) (fun _ _ => rfl) (fun _ _ => rfl) : RewriteStep _ (CreatableRenewers38.first 1) (CreatableRenewers38.first 2) _ _)).whole {} rfl (fun _ => rfl) (fun _ h => ⟨h.1, h.2⟩)

theorem CreateDelegationTokenRequest.rewrites (version : Int16) : Rewrites (CreateDelegationTokenRequest.decode version {}) (CreateDelegationTokenRequest.wire version) (CreateDelegationTokenRequest.Fits version) :=
  ((.structs (get := fun (t : CreateDelegationTokenRequest) => t.Renewers) (set := fun (t : CreateDelegationTokenRequest) x => { t with Renewers := x }) (CreatableRenewers38.rewrites version) (fun _ => rfl) (fun _ => rfl) (fun _ => rfl) (fun _ _ => rfl) (fun _ _ => rfl) (fun _ _ => rfl) : RewriteStep _ (CreateDelegationTokenRequest.first 0) (CreateDelegationTokenRequest.first 1) _ _)
    |>.andThen (.field (get := fun (t : CreateDelegationTokenRequest) => t.MaxLifetimeMs) (set := fun (t : CreateDelegationTokenRequest) x => { t with MaxLifetimeMs := x }) .int64 (fun _ => rfl) (fun _ => rfl) (fun _ _ => rfl) (fun _ _ => rfl) (fun _ _ => rfl) : RewriteStep _ (CreateDelegationTokenRequest.first 1) (CreateDelegationTokenRequest.first 2) _ _)).whole {} rfl (fun _ => rfl) (fun _ h => ⟨h.1⟩)

theorem CreateDelegationTokenResponse.rewrites (version : Int16) : Rewrites (CreateDelegationTokenResponse.decode version {}) (CreateDelegationTokenResponse.wire version) (CreateDelegationTokenResponse.Fits version) :=
  ((.field (get := fun (t : CreateDelegationTokenResponse) => t.ErrorCode) (set := fun (t : CreateDelegationTokenResponse) x => { t with ErrorCode := x }) .int16 (fun _ => rfl) (fun _ => rfl) (fun _ _ => rfl) (fun _ _ => rfl) (fun _ _ => rfl) : RewriteStep _ (CreateDelegationTokenResponse.first 0) (CreateDelegationTokenResponse.first 1) _ _)
    |>.andThen (.field (get := fun (t : CreateDelegationTokenResponse) => t.PrincipalType) (set := fun (t : CreateDelegationTokenResponse) x => { t with PrincipalType := x }) .string (fun _ => rfl) (fun _ => rfl) (fun _ _ => rfl) (fun _ _ => rfl) (fun _ _ => rfl) : RewriteStep _ (CreateDelegationTokenResponse.first 1) (CreateDelegationTokenResponse.first 2) _ _)
    |>.andThen (.field (get := fun (t : CreateDelegationTokenResponse) => t.PrincipalName) (set := fun (t : CreateDelegationTokenResponse) x => { t with PrincipalName := x }) .string (fun _ => rfl) (fun _ => rfl) (fun _ _ => rfl) (fun _ _ => rfl) (fun _ _ => rfl) : RewriteStep _ (CreateDelegationTokenResponse.first 2) (CreateDelegationTokenResponse.first 3) _ _)
    |>.andThen (.field (get := fun (t : CreateDelegationTokenResponse) => t.IssueTimestampMs) (set := fun (t : CreateDelegationTokenResponse) x => { t with IssueTimestampMs := x }) .int64 (fun _ => rfl) (fun _ => rfl) (fun _ _ => rfl) (fun _ _ => rfl) (fun _ _ => rfl) : RewriteStep _ (CreateDelegationTokenResponse.first 3) (CreateDelegationTokenResponse.first 4) _ _)
    |>.andThen (.field (get := fun (t : CreateDelegationTokenResponse) => t.ExpiryTimestampMs) (set := fun (t : CreateDelegationTokenResponse) x => { t with ExpiryTimestampMs := x }) .int64 (fun _ => rfl) (fun _ => rfl) (fun _ _ => rfl) (fun _ _ => rfl) (fun _ _ => rfl) : RewriteStep _ (CreateDelegationTokenResponse.first 4) (CreateDelegationTokenResponse.first 5) _ _)
    |>.andThen (.field (get := fun (t : CreateDelegationTokenResponse) => t.MaxTimestampMs) (set := fun (t : CreateDelegationTokenResponse) x => { t with MaxTimestampMs := x }) .int64 (fun _ => rfl) (fun _ => rfl) (fun _ _ => rfl) (fun _ _ => rfl) (fun _ _ => rfl) : RewriteStep _ (CreateDelegationTokenResponse.first 5) (CreateDelegationTokenResponse.first 6) _ _)
    |>.andThen (.field (get := fun (t : CreateDelegationTokenResponse) => t.TokenId) (set := fun (t : CreateDelegationTokenResponse) x => { t with TokenId := x }) .string (fun _ => rfl) (fun _ => rfl) (fun _ _ => rfl) (fun _ _ => rfl) (fun _ _ => rfl) : RewriteStep _ (CreateDelegationTokenResponse.first 6) (CreateDelegationTokenResponse.first 7) _ _)
    |>.andThen (.field (get := fun (t : CreateDelegationTokenResponse) => t.Hmac) (set := fun (t : CreateDelegationTokenResponse) x => { t with Hmac := x }) .bytes (fun _ => rfl) (fun _ => rfl) (fun _ _ => rfl) (fun _ _ => rfl) (fun _ _ => rfl) : RewriteStep _ (CreateDelegationTokenResponse.first 7) (CreateDelegationTokenResponse.first 8) _ _)
    |>.andThen (.field (get := fun (t : CreateDelegationTokenResponse) => t.ThrottleTimeMs) (set := fun (t : CreateDelegationTokenResponse) x => { t with ThrottleTimeMs := x }) .int32 (fun _ => rfl) (fun _ => rfl) (fun _ _ => rfl) (fun _ _ => rfl) (fun _ _ => rfl) : RewriteStep _ (CreateDelegationTokenResponse.first 8) (CreateDelegationTokenResponse.first 9) _ _)).whole {} rfl (fun _ => rfl) (fun _ h => ⟨h.1.1.1.1.1.1.1.2, h.1.1.1.1.1.1.2, h.1.1.2, h.1.2⟩)

theorem rewritesCreateDelegationToken : ∀ p ∈ typesCreateDelegationToken, ∀ v, Rewrites (p.1.decode v p.1.zero) (p.2.wire v) (p.2.Fits v) := by
  unfold typesCreateDelegationToken
  simp only [List.forall_mem_cons]
  exact ⟨CreateDelegationTokenRequest.rewrites, CreatableRenewers38.rewrites, CreateDelegationTokenResponse.rewrites, fun _ h => absurd h (by simp)⟩

end Kafka.Msg
