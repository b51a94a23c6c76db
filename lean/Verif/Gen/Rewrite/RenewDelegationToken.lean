import Verif.Message.Rewrites
import Verif.Gen.Kept.RenewDelegationToken
import Verif.Gen.All
/-!
Generated by tools/gen_messages.py: encoding RenewDelegationToken messages that were decoded.
-/
namespace Kafka.Msg

theorem RenewDelegationTokenRequest.rewrites (version : Int16) : Rewrites (RenewDelegationTokenRequest.decode version {}) (RenewDelegationTokenRequest.wire version) (RenewDelegationTokenRequest.Fits version) :=
  ((.field (get := fun (t : RenewDelegationTokenRequest) => t.Hmac) (set := fun (t : RenewDelegationTokenRequest) x => { t with Hmac := x }) .bytes (fun _ => rfl) (fun _ => rfl) (fun _ _ => rfl) (fun _ _ => rfl) (fun _ _ => rfl) : RewriteStep _ (RenewDelegationTokenRequest.first 0) (RenewDelegationTokenRequest.first 1) _ _)
    |>.andThen (.field (get := fun (t : RenewDelegationTokenRequest) => t.RenewPeriodMs) (set := fun (t : RenewDelegationTokenRequest) x => { t with RenewPeriodMs := x }) .int64 (fun _ => rfl) (fun _ => rfl) (fun _ _ => rfl) (fun _ _ => rfl) (fun _ _ => rfl) : RewriteStep _ (RenewDelegationTokenRequest.first 1) (RenewDelegationTokenRequest.first 2) _ _)).whole {} rfl (fun _ => rfl) (fun _ h => ⟨h.1⟩)

theorem RenewDelegationTokenResponse.rewrites (version : Int16) : Rewrites (RenewDelegationTokenResponse.decode version {}) (RenewDelegationTokenResponse.wire version) (RenewDelegationTokenResponse.Fits version) :=
  ((.field (get := fun (t : RenewDelegationTokenResponse) => t.ErrorCode) (set := fun (t : RenewDelegationTokenResponse) x => { t with ErrorCode := x }) .int16 (fun _ => rfl) (fun _ => rfl) (fun _ _ => rfl) (fun _ _ => rfl) (fun _ _ => rfl) : RewriteStep _ (RenewDelegationTokenResponse.first 0) (RenewDelegationTokenResponse.first 1) _ _)
    |>.andThen (.field (get := fun (t : RenewDelegationTokenResponse) => t.ExpiryTimestampMs) (set := fun (t : RenewDelegationTokenResponse) x => { t with ExpiryTimestampMs := x }) .int64 (fun _ => rfl) (fun _ => rfl) (fun _ _ => rfl) (fun _ _ => rfl) (fun _ _ => rfl) : RewriteStep _ (RenewDelegationTokenResponse.first 1) (RenewDelegationTokenResponse.first 2) _ _)
    |>.andThen (.field (get := fun (t : RenewDelegationTokenResponse) => t.ThrottleTimeMs) (set := fun (t : RenewDelegationTokenResponse) x => { t with ThrottleTimeMs := x }) .int32 (fun _ => rfl) (fun _ => rfl) (fun _ _ => rfl) (fun _ _ => rfl) (fun _ _ => rfl) : RewriteStep _ (RenewDelegationTokenResponse.first 2) (RenewDelegationTokenResponse.first 3) _ _)).whole {} rfl (fun _ => rfl) (fun _ _ => trivial)

theorem rewritesRenewDelegationToken : ∀ p ∈ typesRenewDelegationToken, ∀ v, Rewrites (p.1.decode v p.1.zero) (p.2.wire v) (p.2.Fits v) := by
  unfold typesRenewDelegationToken
  simp only [List.forall_mem_cons]
  exact ⟨RenewDelegationTokenRequest.rewrites, RenewDelegationTokenResponse.rewrites, fun _ h => absurd h (by simp)⟩

end Kafka.Msg
