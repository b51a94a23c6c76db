import Verif.Message.Rewrites
import Verif.Gen.Kept.AddPartitionsToTxn
import Verif.Gen.All
/-!
Generated by tools/gen_messages.py: encoding AddPartitionsToTxn messages that were decoded.
-/
namespace Kafka.Msg

theorem AddPartitionsToTxnTopic24.rewrites (version : Int16) : Rewrites (AddPartitionsToTxnTopic24.decode version {}) (AddPartitionsToTxnTopic24.wire version) (AddPartitionsToTxnTopic24.Fits version) :=
  ((.field (get := fun (t : AddPartitionsToTxnTopic24) => t.Name) (set := fun (t : AddPartitionsToTxnTopic24) x => { t with Name := x }) .string (fun _ => rfl) (fun _ => rfl) (fun _ _ => rfl) (fun _ _ => rfl) (fun _ _ => rfl) : RewriteStep _ (AddPartitionsToTxnTopic24.first 0) (AddPartitionsToTxnTopic24.first 1) _ _)
    |>.andThen (.field (get := fun (t : AddPartitionsToTxnTopic24) => t.Partitions) (set := fun (t : AddPartitionsToTxnTopic24) x => { t with Partitions := x }) .int32Array (fun _ => rfl) (fun _ => rfl) (fun _ _ => rfl) (fun _ _ => rfl) (fun _ _ => rfl) : RewriteStep _ (AddPartitionsToTxnTopic24.first 1) (AddPartitionsToTxnTopic24.first 2) _ _)).whole {} rfl (fun _ => rfl) (fun _ h => ⟨h.1, h.2⟩)

theorem AddPartitionsToTxnRequest.rewrites (version : Int16) : Rewrites (AddPartitionsToTxnRequest.decode version {}) (AddPartitionsToTxnRequest.wire version) (AddPartitionsToTxnRequest.Fits version) :=
  ((.field (get := fun (t : AddPartitionsToTxnRequest) => t.TransactionalId) (set := fun (t : AddPartitionsToTxnRequest) x => { t with TransactionalId := x }) .string (fun _ => rfl) (fun _ => rfl) (fun _ _ => rfl) (fun _ _ => rfl) (fun _ _ => rfl) : RewriteStep _ (AddPartitionsToTxnRequest.first 0) (AddPartitionsToTxnRequest.first 1) _ _)
    |>.andThen (.field (get := fun (t : AddPartitionsToTxnRequest) => t.ProducerId) (set := fun (t : AddPartitionsToTxnRequest) x => { t with ProducerId := x }) .int64 (fun _ => rfl) (fun _ => rfl) (fun _ _ => rfl) (fun _ _ => rfl) (fun _ _ => rfl) : RewriteStep _ (AddPartitionsToTxnRequest.first 1) (AddPartitionsToTxnRequest.first 2) _ _)
    |>.andThen (.field (get := fun (t : AddPartitionsToTxnRequest) => t.ProducerEpoch) (set := fun (t : AddPartitionsToTxnRequest) x => { t with ProducerEpoch := x }) .int16 (fun _ => rfl) (fun _ => rfl) (fun _ _ => rfl) (fun _ _ => rfl) (fun _ _ => rfl) : RewriteStep _ (AddPartitionsToTxnRequest.first 2) (AddPartitionsToTxnRequest.first 3) _ _)
    |>.andThen (.structs (get := fun (t : AddPartitionsToTxnRequest) => t.Topics) (set := fun (t : AddPartitionsToTxnRequest) x => { t with Topics := x }) (AddPartitionsToTxnTopic24.rewrites version) (fun _ => rfl) (fun _ => rfl) (fun _ => rfl) (fun _ _ => rfl) (fun _ _ => rfl) (fun _ _ => rfl) : RewriteStep _ (AddPartitionsToTxnRequest.first 3) (AddPartitionsToTxnRequest.first 4) _ _)).whole {} rfl (fun _ => rfl) (fun _ h => ⟨h.1.1.1, h.2⟩)

theorem AddPartitionsToTxnPartitionResult24.rewrites (version : Int16) : Rewrites (AddPartitionsToTxnPartitionResult24.decode version {}) (AddPartitionsToTxnPartitionResult24.wire version) (AddPartitionsToTxnPartitionResult24.Fits version) :=
  ((.field (get := fun (t : AddPartitionsToTxnPartitionResult24) => t.PartitionIndex) (set := fun (t : AddPartitionsToTxnPartitionResult24) x => { t with PartitionIndex := x }) .int32 (fun _ => rfl) (fun _ => rfl) (fun _ _ => rfl) (fun _ _ => rfl) (fun _ _ => rfl) : RewriteStep _ (AddPartitionsToTxnPartitionResult24.first 0) (AddPartitionsToTxnPartitionResult24.first 1) _ _)
    |>.andThen (.field (get := fun (t : AddPartitionsToTxnPartitionResult24) => t.ErrorCode) (set := fun (t : AddPartitionsToTxnPartitionResult24) x => { t with ErrorCode := x }) .int16 (fun _ => rfl) (fun _ => rfl) (fun _ _ => rfl) (fun _ _ => rfl) (fun _ _ => rfl) : RewriteStep _ (AddPartitionsToTxnPartitionResult24.first 1) (AddPartitionsToTxnPartitionResult24.first 2) _ _)).whole {} rfl (fun _ => rfl) (fun _ _ => trivial)

theorem AddPartitionsToTxnTopicResult24.rewrites (version : Int16) : Rewrites (AddPartitionsToTxnTopicResult24.decode version {}) (AddPartitionsToTxnTopicResult24.wire version) (AddPartitionsToTxnTopicResult24.Fits version) :=
  ((.field (get := fun (t : AddPartitionsToTxnTopicResult24) => t.Name) (set := fun (t : AddPartitionsToTxnTopicResult24) x => { t with Name := x }) .string (fun _ => rfl) (fun _ => rfl) (fun _ _ => rfl) (fun _ _ => rfl) (fun _ _ => rfl) : RewriteStep _ (AddPartitionsToTxnTopicResult24.first 0) (AddPartitionsToTxnTopicResult24.first 1) _ _)
    |>.andThen (.structs (get := fun (t : AddPartitionsToTxnTopicResult24) => t.Results) (set := fun (t : AddPartitionsToTxnTopicResult24) x => { t with Results := x }) (AddPartitionsToTxnPartitionResult24.rewrites version) (fun _ => rfl) (fun _ => rfl) (fun _ => rfl) (fun _ _ => rfl) (fun _ _ => rfl) (fun _ _ => rfl) : RewriteStep _ (AddPartitionsToTxnTopicResult24.first 1) (AddPartitionsToTxnTopicResult24.first 2) _ _)).whole {} rfl (fun _ => rfl) (fun _ h => ⟨h.1, h.2⟩)

theorem AddPartitionsToTxnResponse.rewrites (version : Int16) : Rewrites (AddPartitionsToTxnResponse.decode version {}) (AddPartitionsToTxnResponse.wire version) (AddPartitionsToTxnResponse.Fits version) :=
  ((.field (get := fun (t : AddPartitionsToTxnResponse) => t.ThrottleTimeMs) (set := fun (t : AddPartitionsToTxnResponse) x => { t with ThrottleTimeMs := x }) .int32 (fun _ => rfl) (fun _ => rfl) (fun _ _ => rfl) (fun _ _ => rfl) (fun _ _ => rfl) : RewriteStep _ (AddPartitionsToTxnResponse.first 0) (AddPartitionsToTxnResponse.first 1) _ _)
    |>.andThen (.structs (get := fun (t : AddPartitionsToTxnResponse) => t.Results) (set := fun (t : AddPartitionsToTxnResponse) x => { t with Results := x }) (AddPartitionsToTxnTopicResult24.rewrites version) (fun _ => rfl) (fun _ => rfl) (fun _ => rfl) (fun _ _ => rfl) (fun _ _ => rfl) (fun _ _ => rfl) : RewriteStep _ (AddPartitionsToTxnResponse.first 1) (AddPartitionsToTxnResponse.first 2) _ _)).whole {} rfl (fun _ => rfl) (fun _ h => ⟨h.2⟩)

theorem rewritesAddPartitionsToTxn : ∀ p ∈ typesAddPartitionsToTxn, ∀ v, Rewrites (p.1.decode v p.1.zero) (p.2.wire v) (p.2.Fits v) := by
  unfold typesAddPartitionsToTxn
  simp only [List.forall_mem_cons]
  exact ⟨AddPartitionsToTxnRequest.rewrites, AddPartitionsToTxnTopic24.rewrites, AddPartitionsToTxnResponse.rewrites, AddPartitionsToTxnTopicResult24.rewrites, AddPartitionsToTxnPartitionResult24.rewrites, fun _ h => absurd h (by simp)⟩

end Kafka.Msg
