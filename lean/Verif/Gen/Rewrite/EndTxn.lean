import Verif.Message.Rewrites
import Verif.Gen.Kept.EndTxn
import Verif.Gen.All
/-!
Generated by tools/gen_messages.py: encoding EndTxn messages that were decoded.
-/
namespace Kafka.Msg

theorem EndTxnRequest.rewrites (version : Int16) : Rewrites (EndTxnRequest.decode version {}) (EndTxnRequest.wire version) (EndTxnRequest.Fits version) :=
  ((.field (get := fun (t : EndTxnRequest) => t.TransactionalId) (set := fun (t : EndTxnRequest) x => { t with TransactionalId := x }) .string (fun _ => rfl) (fun _ => rfl) (fun _ _ => rfl) (fun _ _ => rfl) (fun _ _ => rfl) : RewriteStep _ (EndTxnRequest.first 0) (EndTxnRequest.first 1) _ _)
    |>.andThen (.field (get := fun (t : EndTxnRequest) => t.ProducerId) (set := fun (t : EndTxnRequest) x => { t with ProducerId := x }) .int64 (fun _ => rfl) (fun _ => rfl) (fun _ _ => rfl) (fun _ _ => rfl) (fun _ _ => rfl) : RewriteStep _ (EndTxnRequest.first 1) (EndTxnRequest.first 2) _ _)
    |>.andThen (.field (get := fun (t : EndTxnRequest) => t.ProducerEpoch) (set := fun (t : EndTxnRequest) x => { t with ProducerEpoch := x }) .int16 (fun _ => rfl) (fun _ => rfl) (fun _ _ => rfl) (fun _ _ => rfl) (fun _ _ => rfl) : RewriteStep _ (EndTxnRequest.first 2) (EndTxnRequest.first 3) _ _)
    |>.andThen (.field (get := fun (t : EndTxnRequest) => t.Committed) (set := fun (t : EndTxnRequest) x => { t with Committed := x }) .bool (fun _ => rfl) (fun _ => rfl) (fun _ _ => rfl) (fun _ _ => rfl) (fun _ _ => rfl) : RewriteStep _ (EndTxnRequest.first 3) (EndTxnRequest.first 4) _ _)).whole {} rfl (fun _ => rfl) (fun _ h => ⟨h.1.1.1⟩)

theorem EndTxnResponse.rewrites (version : Int16) : Rewrites (EndTxnResponse.decode version {}) (EndTxnResponse.wire version) (EndTxnResponse.Fits version) :=
  ((.field (get := fun (t : EndTxnResponse) => t.ThrottleTimeMs) (set := fun (t : EndTxnResponse) x => { t with ThrottleTimeMs := x }) .int32 (fun _ => rfl) (fun _ => rfl) (fun _ _ => rfl) (fun _ _ => rfl) (fun _ _ => rfl) : RewriteStep _ (EndTxnResponse.first 0) (EndTxnResponse.first 1) _ _)
    |>.andThen (.field (get := fun (t : EndTxnResponse) => t.ErrorCode) (set := fun (t : EndTxnResponse) x => { t with ErrorCode := x }) .int16 (fun _ => rfl) (fun _ => rfl) (fun _ _ => rfl) (fun _ _ => rfl) (fun _ _ => rfl) : RewriteStep _ (EndTxnResponse.first 1) (EndTxnResponse.first 2) _ _)).whole {} rfl (fun _ => rfl) (fun _ _ => trivial)

theorem rewritesEndTxn : ∀ p ∈ typesEndTxn, ∀ v, Rewrites (p.1.decode v p.1.zero) (p.2.wire v) (p.2.Fits v) := by
  unfold typesEndTxn
  simp only [List.forall_mem_cons]
  exact ⟨EndTxnRequest.rewrites, EndTxnResponse.rewrites, fun _ h => absurd h (by simp)⟩

end Kafka.Msg
