import Verif.Message.Rewrites
import Verif.Gen.Kept.Header
import Verif.Gen.All
/-!
Generated by tools/gen_messages.py: encoding Header messages that were decoded.
-/
namespace Kafka.Msg

theorem RequestHeader.rewrites (version : Int16) : Rewrites (RequestHeader.decode version {}) (RequestHeader.wire version) (RequestHeader.Fits version) :=
  ((.field (get := fun (t : RequestHeader) => t.RequestApiKey) (set := fun (t : RequestHeader) x => { t with RequestApiKey := x }) .int16 (fun _ => rfl) (fun _ => rfl) (fun _ _ => rfl) (fun _ _ => rfl) (fun _ _ => rfl) : RewriteStep _ (RequestHeader.first 0) (RequestHeader.first 1) _ _)
    |>.andThen (.field (get := fun (t : RequestHeader) => t.RequestApiVersion) (set := fun (t : RequestHeader) x => { t with RequestApiVersion := x }) .int16 (fun _ => rfl) (fun _ => rfl) (fun _ _ => rfl) (fun _ _ => rfl) (fun _ _ => rfl) : RewriteStep _ (RequestHeader.first 1) (RequestHeader.first 2) _ _)
    |>.andThen (.field (get := fun (t : RequestHeader) => t.CorrelationId) (set := fun (t : RequestHeader) x => { t with CorrelationId := x }) .int32 (fun _ => rfl) (fun _ => rfl) (fun _ _ => rfl) (fun _ _ => rfl) (fun _ _ => rfl) : RewriteStep _ (RequestHeader.first 2) (RequestHeader.first 3) _ _)
    |>.andThen (.onlyIf (g := version ≥ 1) (.field (get := fun (t : RequestHeader) => t.ClientId) (set := fun (t : RequestHeader) x => { t with ClientId := x }) .string (fun _ => rfl) (fun _ => rfl) (fun _ _ => rfl) (fun _ _ => rfl) (fun _ _ => rfl)) (fun _ => rfl) : RewriteStep _ (RequestHeader.first 3) (RequestHeader.first 4) _ _)).whole {} rfl (fun _ => rfl) (fun _ h => ⟨h.2⟩)

theorem ResponseHeader.rewrites (version : Int16) : Rewrites (ResponseHeader.decode version {}) (ResponseHeader.wire version) (ResponseHeader.Fits version) :=
  ((.field (get := fun (t : ResponseHeader) => t.CorrelationId) (set := fun (t : ResponseHeader) x => { t with CorrelationId := x }) .int32 (fun _ => rfl) (fun _ => rfl) (fun _ _ => rfl) (fun _ _ => rfl) (fun _ _ => rfl) : RewriteStep _ (ResponseHeader.first 0) (ResponseHeader.first 1) _ _)).whole {} rfl (fun _ => rfl) (fun _ _ => trivial)

theorem rewritesHeader : ∀ p ∈ typesHeader, ∀ v, Rewrites (p.1.decode v p.1.zero) (p.2.wire v) (p.2.Fits v) := by
  unfold typesHeader
  simp only [List.forall_mem_cons]
  exact ⟨RequestHeader.rewrites, ResponseHeader.rewrites, fun _ h => absurd h (by simp)⟩

end Kafka.Msg
