import Verif.Message.Rewrites
import Verif.Gen.Kept.DescribeDelegationToken
import Verif.Gen.All
/-!
Generated by tools/gen_messages.py: encoding DescribeDelegationToken messages that were decoded.
-/
namespace Kafka.Msg

theorem DescribeDelegationTokenOwner41.rewrites (version : Int16) : Rewrites (DescribeDelegationTokenOwner41.decode version {}) (DescribeDelegationTokenOwner41.wire version) (DescribeDelegationTokenOwner41.Fits version) :=
  ((.field (get := fun (t : DescribeDelegationTokenOwner41) => t.PrincipalType) (set := fun (t : DescribeDelegationTokenOwner41) x => { t with PrincipalType := x }) .string (fun _ => rfl) (fun _ => rfl) (fun _ _ => rfl) (fun _ _ => rfl) (fun _ _ => rfl) : RewriteStep _ (DescribeDelegationTokenOwner41.first 0) (DescribeDelegationTokenOwner41.first 1) _ _)
    |>.andThen (.field (get := fun (t : DescribeDelegationTokenOwner41) => t.PrincipalName) (set := fun (t : DescribeDelegationTokenOwner41) x => { t with PrincipalName := x }) .string (fun _ => rfl) (fun _ => rfl) (fun _ _ => rfl) (fun _ _ => rfl) (fun _ _ => rfl) : RewriteStep _ (DescribeDelegationTokenOwner41.first 1) (DescribeDelegationTokenOwner41.first 2) _ _)).whole {} rfl (fun _ => rfl) (fun _ h => ⟨h.1, h.2⟩)

theorem DescribeDelegationTokenRequest.rewrites (version : Int16) : Rewrites (DescribeDelegationTokenRequest.decode version {}) (DescribeDelegationTokenRequest.wire version) (DescribeDelegationTokenRequest.Fits version) :=
  ((.structs (get := fun (t : DescribeDelegationTokenRequest) => t.Owners) (set := fun (t : DescribeDelegationTokenRequest) x => { t with Owners := x }) (DescribeDelegationTokenOwner41.rewrites version) (fun _ => rfl) (fun _ => rfl) (fun _ => rfl) (fun _ _ => rfl) (fun _ _ => rfl) (fun _ _ => rfl) : RewriteStep _ (DescribeDelegationTokenRequest.first 0) (DescribeDelegationTokenRequest.first 1) _ _)).whole {} rfl (fun _ => rfl) (fun _ h => ⟨h⟩)

theorem DescribedDelegationTokenRenewer41.rewrites (version : Int16) : Rewrites (DescribedDelegationTokenRenewer41.decode version {}) (DescribedDelegationTokenRenewer41.wire version) (DescribedDelegationTokenRenewer41.Fits version) :=
  ((.field (get := fun (t : DescribedDelegationTokenRenewer41) => t.PrincipalType) (set := fun (t : DescribedDelegationTokenRenewer41) x => { t with PrincipalType := x }) .string (fun _ => rfl) (fun _ => rfl) (fun _ _ => rfl) (fun _ _ => rfl) (fun _ _ => rfl) : RewriteStep _ (DescribedDelegationTokenRenewer41.first 0) (DescribedDelegationTokenRenewer41.first 1) _ _)
    |>.andThen (.field (get := fun (t : DescribedDelegationTokenRenewer41) => t.PrincipalName) (set := fun (t : DescribedDelegationTokenRenewer41) x => { t with PrincipalName := x }) .string (fun _ => rfl) (fun _ => rfl) (fun _ _ => rfl) (fun _ _ => rfl) (fun _ _ => rfl) : RewriteStep _ (DescribedDelegationTokenRenewer41.first 1) (DescribedDelegationTokenRenewer41.first 2) _ _)).whole {} rfl (fun _ => rfl) (fun _ h => ⟨h.1, h.2⟩)

theorem DescribedDelegationToken41.rewrites (version : Int16) : Rewrites (DescribedDelegationToken41.decode version {}) (DescribedDelegationToken41.wire version) (DescribedDelegationToken41.Fits version) :=
  ((.field (get := fun (t : DescribedDelegationToken41) => t.PrincipalType) (set := fun (t : DescribedDelegationToken41) x => { t with PrincipalType := x }) .string (fun _ => rfl) (fun _ => rfl) (fun _ _ => rfl) (fun _ _ => rfl) (fun _ _ => rfl) : RewriteStep _ (DescribedDelegationToken41.first 0) (DescribedDelegationToken41.first 1) _ _)
    |>.andThen (.field (get := fun (t : DescribedDelegationToken41) => t.PrincipalName) (set := fun (t : DescribedDelegationToken41) x => { t with PrincipalName := x }) .string (fun _ => rfl) (fun _ => rfl) (fun _ _ => rfl) (fun _ _ => rfl) (fun _ _ => rfl) : RewriteStep _ (DescribedDelegationToken41.first 1) (DescribedDelegationToken41.first 2) _ _)
    |>.andThen (.field (get := fun (t : DescribedDelegationToken41) => t.IssueTimestamp) (set := fun (t : DescribedDelegationToken41) x => { t with IssueTimestamp := x }) .int64 (fun _ => rfl) (fun _ => rfl) (fun _ _ => rfl) (fun _ _ => rfl) (fun _ _ => rfl) : RewriteStep _ (DescribedDelegationToken41.first 2) (DescribedDelegationToken41.first 3) _ _)
    |>.andThen (.field (get := fun (t : DescribedDelegationToken41) => t.ExpiryTimestamp) (set := fun (t : DescribedDelegationToken41) x => { t with ExpiryTimestamp := x }) .int64 (fun _ => rfl) (fun _ => rfl) (fun _ _ => rfl) (fun _ _ => rfl) (fun _ _ => rfl) : RewriteStep _ (DescribedDelegationToken41.first 3) (DescribedDelegationToken41.first 4) _ _)
    |>.andThen (.field (get := fun (t : DescribedDelegationToken41) => t.MaxTimestamp) (set := fun (t : DescribedDelegationToken41) x => { t with MaxTimestamp := x }) .int64 (fun _ => rfl) (fun _ => rfl) (fun _ _ => rfl) (fun _ _ => rfl) (fun _ _ => rfl) : RewriteStep _ (DescribedDelegationToken41.first 4) (DescribedDelegationToken41.first 5) _ _)
    |>.andThen (.field (get := fun (t : DescribedDelegationToken41) => t.TokenId) (set := fun (t : DescribedDelegationToken41) x => { t with TokenId := x }) .string (fun _ => rfl) (fun _ => rfl) (fun _ _ => rfl) (fun _ _ => rfl) (fun _ _ => rfl) : RewriteStep _ (DescribedDelegationToken41.first 5) (DescribedDelegationToken41.first 6) _ _)
    |>.andThen (.field (get := fun (t : DescribedDelegationToken41) => t.Hmac) (set := fun (t : DescribedDelegationToken41) x => { t with Hmac := x }) .bytes (fun _ => rfl) (fun _ => rfl) (fun _ _ => rfl) (fun _ _ => rfl) (fun _ _ => rfl) : RewriteStep _ (DescribedDelegationToken41.first 6) (DescribedDelegationToken41.first 7) _ _)
    |>.andThen (.structs (get := fun (t : DescribedDelegationToken41) => t.Renewers) (set := fun (t : DescribedDelegationToken41) x => { t with Renewers := x }) (DescribedDelegationTokenRenewer41.rewrites version) (fun _ => rfl) (fun _ => rfl) (fun _ => rfl) (fun _ _ => rfl) (fun _ _ => rfl) (fun _ _ => rfl) : RewriteStep _ (DescribedDelegationToken41.first 7) (DescribedDelegationToken41.first 8) _ _)).whole {} rfl (fun _ => rfl) (fun _ h => ⟨h.1.1.1.1.1.1.1, h.1.1.1.1.1.1.2, h.1.1.2, h.1.2, h.2⟩)

theorem DescribeDelegationTokenResponse.rewrites (version : Int16) : Rewrites (DescribeDelegationTokenResponse.decode version {}) (DescribeDelegationTokenResponse.wire version) (DescribeDelegationTokenResponse.Fits version) :=
  ((.field (get := fun (t : DescribeDelegationTokenResponse) => t.ErrorCode) (set := fun (t : DescribeDelegationTokenResponse) x => { t with ErrorCode := x }) .int16 (fun _ => rfl) (fun _ => rfl) (fun _ _ => rfl) (fun _ _ => rfl) (fun _ _ => rfl) : RewriteStep _ (DescribeDelegationTokenResponse.first 0) (DescribeDelegationTokenResponse.first 1) _ _)
    |>.andThen (.structs (get := fun (t : DescribeDelegationTokenResponse) => t.Tokens) (set := fun (t : DescribeDelegationTokenResponse) x => { t with Tokens := x }) (DescribedDelegationToken41.rewrites version) (fun _ => rfl) (fun _ => rfl) (fun _ => rfl) (fun _ _ => rfl) (fun _ _ => rfl) (fun _ _ => rfl) : RewriteStep _ (DescribeDelegationTokenResponse.first 1) (DescribeDelegationTokenResponse.first 2) _ _)
    |>.andThen (.field (get := fun (t : DescribeDelegationTokenResponse) => t.ThrottleTimeMs) (set := fun (t : DescribeDelegationTokenResponse) x => { t with ThrottleTimeMs := x }) .int32 (fun _ => rfl) (fun _ => rfl) (fun _ _ => rfl) (fun _ _ => rfl) (fun _ _ => rfl) : RewriteStep _ (DescribeDelegationTokenResponse.first 2) (DescribeDelegationTokenResponse.first 3) _ _)).whole {} rfl (fun _ => rfl) (fun _ h => ⟨h.1.2⟩)

theorem rewritesDescribeDelegationToken : ∀ p ∈ typesDescribeDelegationToken, ∀ v, Rewrites (p.1.decode v p.1.zero) (p.2.wire v) (p.2.Fits v) := by
  unfold typesDescribeDelegationToken
  simp only [List.forall_mem_cons]
  exact ⟨DescribeDelegationTokenRequest.rewrites, DescribeDelegationTokenOwner41.rewrites, DescribeDelegationTokenResponse.rewrites, DescribedDelegationToken41.rewrites, DescribedDelegationTokenRenewer41.rewrites, fun _ h => absurd h (by simp)⟩

end Kafka.Msg
