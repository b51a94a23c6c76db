import Verif.Message.Rewrites
import Verif.Gen.Kept.TxnOffsetCommit
import Verif.Gen.All
/-!
Generated by tools/gen_messages.py: encoding TxnOffsetCommit messages that were decoded.
-/
namespace Kafka.Msg

theorem TxnOffsetCommitRequestPartition28.rewrites (version : Int16) : Rewrites (TxnOffsetCommitRequestPartition28.decode version {}) (TxnOffsetCommitRequestPartition28.wire version) (TxnOffsetCommitRequestPartition28.Fits version) :=
  ((.field (get := fun (t : TxnOffsetCommitRequestPartition28) => t.PartitionIndex) (set := fun (t : TxnOffsetCommitRequestPartition28) x => { t with PartitionIndex := x }) .int32 (fun _ => rfl) (fun _ => rfl) (fun _ _ => rfl) (fun _ _ => rfl) (fun _ _ => rfl) : RewriteStep _ (TxnOffsetCommitRequestPartition28.first 0) (TxnOffsetCommitRequestPartition28.first 1) _ _)
    |>.andThen (.field (get := fun (t : TxnOffsetCommitRequestPartition28) => t.CommittedOffset) (set := fun (t : TxnOffsetCommitRequestPartition28) x => { t with CommittedOffset := x }) .int64 (fun _ => rfl) (fun _ => rfl) (fun _ _ => rfl) (fun _ _ => rfl) (fun _ _ => rfl) : RewriteStep _ (TxnOffsetCommitRequestPartition28.first 1) (TxnOffsetCommitRequestPartition28.first 2) _ _)
    |>.andThen (.onlyIf (g := version ≥ 2) (.field (get := fun (t : TxnOffsetCommitRequestPartition28) => t.CommittedLeaderEpoch) (set := fun (t : TxnOffsetCommitRequestPartition28) x => { t with CommittedLeaderEpoch := x }) .int32 (fun _ => rfl) (fun _ => rfl) (fun _ _ => rfl) (fun _ _ => rfl) (fun _ _ => rfl)) (fun _ => rfl) : RewriteStep _ (TxnOffsetCommitRequestPartition28.first 2) (TxnOffsetCommitRequestPartition28.first 3) _ _)
    |>.andThen (.field (get := fun (t : TxnOffsetCommitRequestPartition28) => t.CommittedMetadata) (set := fun (t : TxnOffsetCommitRequestPartition28) x => { t with CommittedMetadata := x }) .string (fun _ => rfl) (fun _ => rfl) (fun _ _ => rfl) (fun _ _ => rfl) (fun _ _ => rfl) : RewriteStep _ (TxnOffsetCommitRequestPartition28.first 3) (TxnOffsetCommitRequestPartition28.first 4) _ _)).whole {} rfl (fun _ => rfl) (fun _ h => ⟨h.2⟩)

theorem TxnOffsetCommitRequestTopic28.rewrites (version : Int16) : Rewrites (TxnOffsetCommitRequestTopic28.decode version {}) (TxnOffsetCommitRequestTopic28.wire version) (TxnOffsetCommitRequestTopic28.Fits version) :=
  ((.field (get := fun (t : TxnOffsetCommitRequestTopic28) => t.Name) (set := fun (t : TxnOffsetCommitRequestTopic28) x => { t with Name := x }) .string (fun _ => rfl) (fun _ => rfl) (fun _ _ => rfl) (fun _ _ => rfl) (fun _ _ => rfl) : RewriteStep _ (TxnOffsetCommitRequestTopic28.first 0) (TxnOffsetCommitRequestTopic28.first 1) _ _)
    |>.andThen (.structs (get := fun (t : TxnOffsetCommitRequestTopic28) => t.Partitions) (set := fun (t : TxnOffsetCommitRequestTopic28) x => { t with Partitions := x }) (TxnOffsetCommitRequestPartition28.rewrites version) (fun _ => rfl) (fun _ => rfl) (fun _ => rfl) (fun _ _ => rfl) (fun _ _ => rfl) (fun _ _ => rfl) : RewriteStep _ (TxnOffsetCommitRequestTopic28.first 1) (TxnOffsetCommitRequestTopic28.first 2) _ _)).whole {} rfl (fun _ => rfl) (fun _ h => ⟨h.1, h.2⟩)

theorem TxnOffsetCommitRequest.rewrites (version : Int16) : Rewrites (TxnOffsetCommitRequest.decode version {}) (TxnOffsetCommitRequest.wire version) (TxnOffsetCommitRequest.Fits version) :=
  ((.field (get := fun (t : TxnOffsetCommitRequest) => t.TransactionalId) (set := fun (t : TxnOffsetCommitRequest) x => { t with TransactionalId := x }) .string (fun _ => rfl) (fun _ => rfl) (fun _ _ => rfl) (fun _ _ => rfl) (fun _ _ => rfl) : RewriteStep _ (TxnOffsetCommitRequest.first 0) (TxnOffsetCommitRequest.first 1) _ _)
    |>.andThen (.field (get := fun (t : TxnOffsetCommitRequest) => t.GroupId) (set := fun (t : TxnOffsetCommitRequest) x => { t with GroupId := x }) .string (fun _ => rfl) (fun _ => rfl) (fun _ _ => rfl) (fun _ _ => rfl) (fun _ _ => rfl) : RewriteStep _ (TxnOffsetCommitRequest.first 1) (TxnOffsetCommitRequest.first 2) _ _)
    |>.andThen (.field (get := fun (t : TxnOffsetCommitRequest) => t.ProducerId) (set := fun (t : TxnOffsetCommitRequest) x => { t with ProducerId := x }) .int64 (fun _ => rfl) (fun _ => rfl) (fun _ _ => rfl) (fun _ _ => rfl) (fun _ _ => rfl) : RewriteStep _ (TxnOffsetCommitRequest.first 2) (TxnOffsetCommitRequest.first 3) _ _)
    |>.andThen (.field (get := fun (t : TxnOffsetCommitRequest) => t.ProducerEpoch) (set := fun (t : TxnOffsetCommitRequest) x => { t with ProducerEpoch := x }) .int16 (fun _ => rfl) (fun _ => rfl) (fun _ _ => rfl) (fun _ _ => rfl) (fun _ _ => rfl) : RewriteStep _ (TxnOffsetCommitRequest.first 3) (TxnOffsetCommitRequest.first 4) _ _)
    |>.andThen (.structs (get := fun (t : TxnOffsetCommitRequest) => t.Topics) (set := fun (t : TxnOffsetCommitRequest) x => { t with Topics := x }) (TxnOffsetCommitRequestTopic28.rewrites version) (fun _ => rfl) (fun _ => rfl) (fun _ => rfl) (fun _ _ => rfl) (fun _ _ => rfl) (fun _ _ => rfl) : RewriteStep _ (TxnOffsetCommitRequest.first 4) (TxnOffsetCommitRequest.first 5) _ _)).whole {} rfl (fun _ => rfl) (fun _ h => ⟨h.1.1.1.1, h.1.1.1.2, h.2⟩)

theorem TxnOffsetCommitResponsePartition28.rewrites (version : Int16) : Rewrites (TxnOffsetCommitResponsePartition28.decode version {}) (TxnOffsetCommitResponsePartition28.wire version) (TxnOffsetCommitResponsePartition28.Fits version) :=
  ((.field (get := fun (t : TxnOffsetCommitResponsePartition28) => t.PartitionIndex) (set := fun (t : TxnOffsetCommitResponsePartition28) x => { t with PartitionIndex := x }) .int32 (fun _ => rfl) (fun _ => rfl) (fun _ _ => rfl) (fun _ _ => rfl) (fun _ _ => rfl) : RewriteStep _ (TxnOffsetCommitResponsePartition28.first 0) (TxnOffsetCommitResponsePartition28.first 1) _ _)
    |>.andThen (.field (get := fun (t : TxnOffsetCommitResponsePartition28) => t.ErrorCode) (set := fun (t : TxnOffsetCommitResponsePartition28) x => { t with ErrorCode := x }) .int16 (fun _ => rfl) (fun _ => rfl) (fun _ _ => rfl) (fun _ _ => rfl) (fun _ _ => rfl) : RewriteStep _ (TxnOffsetCommitResponsePartition28.first 1) (TxnOffsetCommitResponsePartition28.first 2) _ _)).whole {} rfl (fun _ => rfl) (fun _ _ => trivial)

theorem TxnOffsetCommitResponseTopic28.rewrites (version : Int16) : Rewrites (TxnOffsetCommitResponseTopic28.decode version {}) (TxnOffsetCommitResponseTopic28.wire version) (TxnOffsetCommitResponseTopic28.Fits version) :=
  ((.field (get := fun (t : TxnOffsetCommitResponseTopic28) => t.Name) (set := fun (t : TxnOffsetCommitResponseTopic28) x => { t with Name := x }) .string (fun _ => rfl) (fun _ => rfl) (fun _ _ => rfl) (fun _ _ => rfl) (fun _ _ => rfl) : RewriteStep _ (TxnOffsetCommitResponseTopic28.first 0) (TxnOffsetCommitResponseTopic28.first 1) _ _)
    |>.andThen (.structs (get := fun (t : TxnOffsetCommitResponseTopic28) => t.Partitions) (set := fun (t : TxnOffsetCommitResponseTopic28) x => { t with Partitions := x }) (TxnOffsetCommitResponsePartition28.rewrites version) (fun _ => rfl) (fun _ => rfl) (fun _ => rfl) (fun _ _ => rfl) (fun _ _ => rfl) (fun _ _ => rfl) : RewriteStep _ (TxnOffsetCommitResponseTopic28.first 1) (TxnOffsetCommitResponseTopic28.first 2) _ _)).whole {} rfl (fun _ => rfl) (fun _ h => ⟨h.1, h.2⟩)

theorem TxnOffsetCommitResponse.rewrites (version : Int16) : Rewrites (TxnOffsetCommitResponse.decode version {}) (TxnOffsetCommitResponse.wire version) (TxnOffsetCommitResponse.Fits version) :=
  ((.field (get := fun (t : TxnOffsetCommitResponse) => t.ThrottleTimeMs) (set := fun (t : TxnOffsetCommitResponse) x => { t with ThrottleTimeMs := x }) .int32 (fun _ => rfl) (fun _ => rfl) (fun _ _ => rfl) (fun _ _ => rfl) (fun _ _ => rfl) : RewriteStep _ (TxnOffsetCommitResponse.first 0) (TxnOffsetCommitResponse.first 1) _ _)
    |>.andThen (.structs (get := fun (t : TxnOffsetCommitResponse) => t.Topics) (set := fun (t : TxnOffsetCommitResponse) x => { t with Topics := x }) (TxnOffsetCommitResponseTopic28.rewrites version) (fun _ => rfl) (fun _ => rfl) (fun _ => rfl) (fun _ _ => rfl) (fun _ _ => rfl) (fun _ _ => rfl) : RewriteStep _ (TxnOffsetCommitResponse.first 1) (TxnOffsetCommitResponse.first 2) _ _)).whole {} rfl (fun _ => rfl) (fun _ h => ⟨h.2⟩)

theorem rewritesTxnOffsetCommit : ∀ p ∈ typesTxnOffsetCommit, ∀ v, Rewrites (p.1.decode v p.1.zero) (p.2.wire v) (p.2.Fits v) := by
  unfold typesTxnOffsetCommit
  simp only [List.forall_mem_cons]
  exact ⟨TxnOffsetCommitRequest.rewrites, TxnOffsetCommitRequestTopic28.rewrites, TxnOffsetCommitRequestPartition28.rewrites, TxnOffsetCommitResponse.rewrites, TxnOffsetCommitResponseTopic28.rewrites, TxnOffsetCommitResponsePartition28.rewrites, fun _ h => absurd h (by simp)⟩

end Kafka.Msg
