import Verif.Message.Rewrites
import Verif.Gen.Kept.ExpireDelegationToken
import Verif.Gen.All
/-!
Generated by tools/gen_messages.py: encoding ExpireDelegationToken messages that were decoded.
-/
namespace Kafka.Msg

theorem ExpireDelegationTokenRequest.rewrites (version : Int16) : Rewrites (ExpireDelegationTokenRequest.decode version {}) (ExpireDelegationTokenRequest.wire version) (ExpireDelegationTokenRequest.Fits version) :=
  ((.field (get := fun (t : ExpireDelegationTokenRequest) => t.Hmac) (set := fun (t : ExpireDelegationTokenRequest) x => { t with Hmac := x }) .bytes (fun _ => rfl) (fun _ => rfl) (fun _ _ => rfl) (fun _ _ => rfl) (fun _ _ => rfl) : RewriteStep _ (ExpireDelegationTokenRequest.first 0) (ExpireDelegationTokenRequest.first 1) _ _)
    |>.andThen (.field (get := fun (t : ExpireDelegationTokenRequest) => t.ExpiryTimePeriodMs) (set := fun (t : ExpireDelegationTokenRequest) x => { t with ExpiryTimePeriodMs := x }) .int64 (fun _ => rfl) (fun _ => rfl) (fun _ _ => rfl) (fun _ _ => rfl) (fun _ _ => rfl) : RewriteStep _ (ExpireDelegationTokenRequest.first 1) (ExpireDelegationTokenRequest.first 2) _ _)).whole {} rfl (fun _ => rfl) (fun _ h => ⟨h.1⟩)

theorem ExpireDelegationTokenResponse.rewrites (version : Int16) : Rewrites (ExpireDelegationTokenResponse.decode version {}) (ExpireDelegationTokenResponse.wire version) (ExpireDelegationTokenResponse.Fits version) :=
  ((.field (get := fun (t : ExpireDelegationTokenResponse) => t.ErrorCode) (set := fun (t : ExpireDelegationTokenResponse) x => { t with ErrorCode := x }) .int16 (fun _ => rfl) (fun _ => rfl) (fun _ _ => rfl) (fun _ _ => rfl) (fun _ _ => rfl) : RewriteStep _ (ExpireDelegationTokenResponse.first 0) (ExpireDelegationTokenResponse.first 1) _ _)
    |>.andThen (.field (get := fun (t : ExpireDelegationTokenResponse) => t.ExpiryTimestampMs) (set := fun (t : ExpireDelegationTokenResponse) x => { t with ExpiryTimestampMs := x }) .int64 (fun _ => rfl) (fun _ => rfl) (fun _ _ => rfl) (fun _ _ => rfl) (fun _ _ => rfl) : RewriteStep _ (ExpireDelegationTokenResponse.first 1) (ExpireDelegationTokenResponse.first 2) _ _)
    |>.andThen (.field (get := fun (t : ExpireDelegationTokenResponse) => t.ThrottleTimeMs) (set := fun (t : ExpireDelegationTokenResponse) x => { t with ThrottleTimeMs := x }) .int32 (fun _ => rfl) (fun _ => rfl) (fun _ _ => rfl) (fun _ _ => rfl) (fun _ _ => rfl) : RewriteStep _ (ExpireDelegationTokenResponse.first 2) (ExpireDelegationTokenResponse.first 3) _ _)).whole {} rfl (fun _ => rfl) (fun _ _ => trivial)

theorem rewritesExpireDelegationToken : ∀ p ∈ typesExpireDelegationToken, ∀ v, Rewrites (p.1.decode v p.1.zero) (p.2.wire v) (p.2.Fits v) := by
  unfold typesExpireDelegationToken
  simp only [List.forall_mem_cons]
  exact ⟨ExpireDelegationTokenRequest.rewrites, ExpireDelegationTokenResponse.rewrites, fun _ h => absurd h (by simp)⟩

end Kafka.Msg
