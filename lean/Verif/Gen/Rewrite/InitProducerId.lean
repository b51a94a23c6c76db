import Verif.Message.Rewrites
import Verif.Gen.Kept.InitProducerId
import Verif.Gen.All
/-!
Generated by tools/gen_messages.py: encoding InitProducerId messages that were decoded.
-/
namespace Kafka.Msg

theorem InitProducerIdRequest.rewrites (version : Int16) : Rewrites (InitProducerIdRequest.decode version {}) (InitProducerIdRequest.wire version) (InitProducerIdRequest.Fits version) :=
  ((.field (get := fun (t : InitProducerIdRequest) => t.TransactionalId) (set := fun (t : InitProducerIdRequest) x => { t with TransactionalId := x }) .string (fun _ => rfl) (fun _ => rfl) (fun _ _ => rfl) (fun _ _ => rfl) (fun _ _ => rfl) : RewriteStep _ (InitProducerIdRequest.first 0) (InitProducerIdRequest.first 1) _ _)
    |>.andThen (.field (get := fun (t : InitProducerIdRequest) => t.TransactionTimeoutMs) (set := fun (t : InitProducerIdRequest) x => { t with TransactionTimeoutMs := x }) .int32 (fun _ => rfl) (fun _ => rfl) (fun _ _ => rfl) (fun _ _ => rfl) (fun _ _ => rfl) : RewriteStep _ (InitProducerIdRequest.first 1) (InitProducerIdRequest.first 2) _ _)).whole {} rfl (fun _ => rfl) (fun _ h => ⟨h.1⟩)

theorem InitProducerIdResponse.rewrites (version : Int16) : Rewrites (InitProducerIdResponse.decode version {}) (InitProducerIdResponse.wire version) (InitProducerIdResponse.Fits version) :=
  ((.field (get := fun (t : InitProducerIdResponse) => t.ThrottleTimeMs) (set := fun (t : InitProducerIdResponse) x => { t with ThrottleTimeMs := x }) .int32 (fun _ => rfl) (fun _ => rfl) (fun _ _ => rfl) (fun _ _ => rfl) (fun _ _ => rfl) : RewriteStep _ (InitProducerIdResponse.first 0) (InitProducerIdResponse.first 1) _ _)
    |>.andThen (.field (get := fun (t : InitProducerIdResponse) => t.ErrorCode) (set := fun (t : InitProducerIdResponse) x => { t with ErrorCode := x }) .int16 (fun _ => rfl) (fun _ => rfl) (fun _ _ => rfl) (fun _ _ => rfl) (fun _ _ => rfl) : RewriteStep _ (InitProducerIdResponse.first 1) (InitProducerIdResponse.first 2) _ _)
    |>.andThen (.field (get := fun (t : InitProducerIdResponse) => t.ProducerId) (set := fun (t : InitProducerIdResponse) x => { t with ProducerId := x }) .int64 (fun _ => rfl) (fun _ => rfl) (fun _ _ => rfl) (fun _ _ => rfl) (fun _ _ => rfl) : RewriteStep _ (InitProducerIdResponse.first 2) (InitProducerIdResponse.first 3) _ _)
    |>.andThen (.field (get := fun (t : InitProducerIdResponse) => t.ProducerEpoch) (set := fun (t : InitProducerIdResponse) x => { t with ProducerEpoch := x }) .int16 (fun _ => rfl) (fun _ => rfl) (fun _ _ => rfl) (fun _ _ => rfl) (fun _ _ => rfl) : RewriteStep _ (InitProducerIdResponse.first 3) (InitProducerIdResponse.first 4) _ _)).whole {} rfl (fun _ => rfl) (fun _ _ => trivial)

theorem rewritesInitProducerId : ∀ p ∈ typesInitProducerId, ∀ v, Rewrites (p.1.decode v p.1.zero) (p.2.wire v) (p.2.Fits v) := by
  unfold typesInitProducerId
  simp only [List.forall_mem_cons]
  exact ⟨InitProducerIdRequest.rewrites, InitProducerIdResponse.rewrites, fun _ h => absurd h (by simp)⟩

end Kafka.Msg
