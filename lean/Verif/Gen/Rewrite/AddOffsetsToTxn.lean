import Verif.Message.Rewrites
import Verif.Gen.Kept.AddOffsetsToTxn
import Verif.Gen.All
/-!
Generated by tools/gen_messages.py: encoding AddOffsetsToTxn messages that were decoded.
-/
namespace Kafka.Msg

theorem AddOffsetsToTxnRequest.rewrites (version : Int16) : Rewrites (AddOffsetsToTxnRequest.decode version {}) (AddOffsetsToTxnRequest.wire version) (AddOffsetsToTxnRequest.Fits version) :=
  ((.field (get := fun (t : AddOffsetsToTxnRequest) => t.TransactionalId) (set := fun (t : AddOffsetsToTxnRequest) x => { t with TransactionalId := x }) .string (fun _ => rfl) (fun _ => rfl) (fun _ _ => rfl) (fun _ _ => rfl) (fun _ _ => rfl) : RewriteStep _ (AddOffsetsToTxnRequest.first 0) (AddOffsetsToTxnRequest.first 1) _ _)
    |>.andThen (.field (get := fun (t : AddOffsetsToTxnRequest) => t.ProducerId) (set := fun (t : AddOffsetsToTxnRequest) x => { t with ProducerId := x }) .int64 (fun _ => rfl) (fun _ => rfl) (fun _ _ => rfl) (fun _ _ => rfl) (fun _ _ => rfl) : RewriteStep _ (AddOffsetsToTxnRequest.first 1) (AddOffsetsToTxnRequest.first 2) _ _)
    |>.andThen (.field (get := fun (t : AddOffsetsToTxnRequest) => t.ProducerEpoch) (set := fun (t : AddOffsetsToTxnRequest) x => { t with ProducerEpoch := x }) .int16 (fun _ => rfl) (fun _ => rfl) (fun _ _ => rfl) (fun _ _ => rfl) (fun _ _ => rfl) : RewriteStep _ (AddOffsetsToTxnRequest.first 2) (AddOffsetsToTxnRequest.first 3) _ _)
    |>.andThen (.field (get := fun (t : AddOffsetsToTxnRequest) => t.GroupId) (set := fun (t : AddOffsetsToTxnRequest) x => { t with GroupId := x }) .string (fun _ => rfl) (fun _ => rfl) (fun _ _ => rfl) (fun _ _ => rfl) (fun _ _ => rfl) : RewriteStep _ (AddOffsetsToTxnRequest.first 3) (AddOffsetsToTxnRequest.first 4) _ _)).whole {} rfl (fun _ => rfl) (fun _ h => ⟨h.1.1.1, h.2⟩)

theorem AddOffsetsToTxnResponse.rewrites (version : Int16) : Rewrites (AddOffsetsToTxnResponse.decode version {}) (AddOffsetsToTxnResponse.wire version) (AddOffsetsToTxnResponse.Fits version) :=
  ((.field (get := fun (t : AddOffsetsToTxnResponse) => t.ThrottleTimeMs) (set := fun (t : AddOffsetsToTxnResponse) x => { t with ThrottleTimeMs := x }) .int32 (fun _ => rfl) (fun _ => rfl) (fun _ _ => rfl) (fun _ _ => rfl) (fun _ _ => rfl) : RewriteStep _ (AddOffsetsToTxnResponse.first 0) (AddOffsetsToTxnResponse.first 1) _ _)
    |>.andThen (.field (get := fun (t : AddOffsetsToTxnResponse) => t.ErrorCode) (set := fun (t : AddOffsetsToTxnResponse) x => { t with ErrorCode := x }) .int16 (fun _ => rfl) (fun _ => rfl) (fun _ _ => rfl) (fun _ _ => rfl) (fun _ _ => rfl) : RewriteStep _ (AddOffsetsToTxnResponse.first 1) (AddOffsetsToTxnResponse.first 2) _ _)).whole {} rfl (fun _ => rfl) (fun _ _ => trivial)

theorem rewritesAddOffsetsToTxn : ∀ p ∈ typesAddOffsetsToTxn, ∀ v, Rewrites (p.1.decode v p.1.zero) (p.2.wire v) (p.2.Fits v) := by
  unfold typesAddOffsetsToTxn
  simp only [List.forall_mem_cons]
  exact ⟨AddOffsetsToTxnRequest.rewrites, AddOffsetsToTxnResponse.rewrites, fun _ h => absurd h (by simp)⟩

end Kafka.Msg
