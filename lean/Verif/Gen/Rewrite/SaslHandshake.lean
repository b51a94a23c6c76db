import Verif.Message.Rewrites
import Verif.Gen.Kept.SaslHandshake
import Verif.Gen.All
/-!
Generated by tools/gen_messages.py: encoding SaslHandshake messages that were decoded.
-/
namespace Kafka.Msg

theorem SaslHandshakeRequest.rewrites (version : Int16) : Rewrites (SaslHandshakeRequest.decode version {}) (SaslHandshakeRequest.wire version) (SaslHandshakeRequest.Fits version) :=
  ((.field (get := fun (t : SaslHandshakeRequest) => t.Mechanism) (set := fun (t : SaslHandshakeRequest) x => { t with Mechanism := x }) .string (fun _ => rfl) (fun _ => rfl) (fun _ _ => rfl) (fun _ _ => rfl) (fun _ _ => rfl) : RewriteStep _ (SaslHandshakeRequest.first 0) (SaslHandshakeRequest.first 1) _ _)).whole {} rfl (fun _ => rfl) (fun _ h => ⟨h⟩)

theorem SaslHandshakeResponse.rewrites (version : Int16) : Rewrites (SaslHandshakeResponse.decode version {}) (SaslHandshakeResponse.wire version) (SaslHandshakeResponse.Fits version) :=
  ((.field (get := fun (t : SaslHandshakeResponse) => t.ErrorCode) (set := fun (t : SaslHandshakeResponse) x => { t with ErrorCode := x }) .int16 (fun _ => rfl) (fun _ => rfl) (fun _ _ => rfl) (fun _ _ => rfl) (fun _ _ => rfl) : RewriteStep _ (SaslHandshakeResponse.first 0) (SaslHandshakeResponse.first 1) _ _)
    |>.andThen (.field (get := fun (t : SaslHandshakeResponse) => t.Mechanisms) (set := fun (t : SaslHandshakeResponse) x => { t with Mechanisms := x }) .stringArray (fun _ => rfl) (fun _ => rfl) (fun _ _ => rfl) (fun _ _ => rfl) (fun _ _ => rfl) : RewriteStep _ (SaslHandshakeResponse.first 1) (SaslHandshakeResponse.first 2) _ _)).whole {} rfl (fun _ => rfl) (fun _ h => ⟨h.2⟩)

theorem rewritesSaslHandshake : ∀ p ∈ typesSaslHandshake, ∀ v, Rewrites (p.1.decode v p.1.zero) (p.2.wire v) (p.2.Fits v) := by
  unfold typesSaslHandshake
  simp only [List.forall_mem_cons]
  exact ⟨SaslHandshakeRequest.rewrites, SaslHandshakeResponse.rewrites, fun _ h => absurd h (by simp)⟩

end Kafka.Msg
