import Verif.Message.Rewrites
import Verif.Gen.Kept.SaslAuthenticate
import Verif.Gen.All
/-!
Generated by tools/gen_messages.py: encoding SaslAuthenticate messages that were decoded.
-/
namespace Kafka.Msg

theorem SaslAuthenticateRequest.rewrites (version : Int16) : Rewrites (SaslAuthenticateRequest.decode version {}) (SaslAuthenticateRequest.wire version) (SaslAuthenticateRequest.Fits version) :=
  ((.field (get := fun (t : SaslAuthenticateRequest) => t.AuthBytes) (set := fun (t : SaslAuthenticateRequest) x => { t with AuthBytes := x }) .bytes (fun _ => rfl) (fun _ => rfl) (fun _ _ => rfl) (fun _ _ => rfl) (fun _ _ => rfl) : RewriteStep _ (SaslAuthenticateRequest.first 0) (SaslAuthenticateRequest.first 1) _ _)).whole {} rfl (fun _ => rfl) (fun _ h => ⟨h⟩)

theorem SaslAuthenticateResponse.rewrites (version : Int16) : Rewrites (SaslAuthenticateResponse.decode version {}) (SaslAuthenticateResponse.wire version) (SaslAuthenticateResponse.Fits version) :=
  ((.field (get := fun (t : SaslAuthenticateResponse) => t.ErrorCode) (set := fun (t : SaslAuthenticateResponse) x => { t with ErrorCode := x }) .int16 (fun _ => rfl) (fun _ => rfl) (fun _ _ => rfl) (fun _ _ => rfl) (fun _ _ => rfl) : RewriteStep _ (SaslAuthenticateResponse.first 0) (SaslAuthenticateResponse.first 1) _ _)
    |>.andThen (.field (get := fun (t : SaslAuthenticateResponse) => t.ErrorMessage) (set := fun (t : SaslAuthenticateResponse) x => { t with ErrorMessage := x }) .string (fun _ => rfl) (fun _ => rfl) (fun _ _ => rfl) (fun _ _ => rfl) (fun _ _ => rfl) : RewriteStep _ (SaslAuthenticateResponse.first 1) (SaslAuthenticateResponse.first 2) _ _)
    |>.andThen (.field (get := fun (t : SaslAuthenticateResponse) => t.AuthBytes) (set := fun (t : SaslAuthenticateResponse) x => { t with AuthBytes := x }) .bytes (fun _ => rfl) (fun _ => rfl) (fun _ _ => rfl) (fun _ _ => rfl) (fun _ _ => rfl) : RewriteStep _ (SaslAuthenticateResponse.first 2) (SaslAuthenticateResponse.first 3) _ _)
    |>.andThen (.onlyIf (g := version ≥ 1) (.field (get := fun (t : SaslAuthenticateResponse) => t.SessionLifetimeMs) (set := fun (t : SaslAuthenticateResponse) x => { t with SessionLifetimeMs := x }) .int64 (fun _ => rfl) (fun _ => rfl) (fun _ _ => rfl) (fun _ _ => rfl) (fun _ _ => rfl)) (fun _ => rfl) : RewriteStep _ (SaslAuthenticateResponse.first 3) (SaslAuthenticateResponse.first 4) _ _)).whole {} rfl (fun _ => rfl) (fun _ h => ⟨h.1.1.2, h.1.2⟩)

theorem rewritesSaslAuthenticate : ∀ p ∈ typesSaslAuthenticate, ∀ v, Rewrites (p.1.decode v p.1.zero) (p.2.wire v) (p.2.Fits v) := by
  unfold typesSaslAuthenticate
  simp only [List.forall_mem_cons]
  exact ⟨SaslAuthenticateRequest.rewrites, SaslAuthenticateResponse.rewrites, fun _ h => absurd h (by simp)⟩

end Kafka.Msg
