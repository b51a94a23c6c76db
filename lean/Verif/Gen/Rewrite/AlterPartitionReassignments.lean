import Verif.Message.Rewrites
import Verif.Gen.Kept.AlterPartitionReassignments
import Verif.Gen.All
/-!
Generated by tools/gen_messages.py: encoding AlterPartitionReassignments messages that were decoded.
-/
namespace Kafka.Msg

theorem ReassignablePartition45.rewrites (version : Int16) : Rewrites (ReassignablePartition45.decode version {}) (ReassignablePartition45.wire version) (ReassignablePartition45.Fits version) :=
  ((.field (get := fun (t : ReassignablePartition45) => t.PartitionIndex) (set := fun (t : ReassignablePartition45) x => { t with PartitionIndex := x }) .int32 (fun _ => rfl) (fun _ => rfl) (fun _ _ => rfl) (fun _ _ => rfl) (fun _ _ => rfl) : RewriteStep _ (ReassignablePartition45.first 0) (ReassignablePartition45.first 1) _ _)
    |>.andThen (.field (get := fun (t : ReassignablePartition45) => t.Replicas) (set := fun (t : ReassignablePartition45) x => { t with Replicas := x }) .int32Array (fun _ => rfl) (fun _ => rfl) (fun _ _ => rfl) (fun _ _ => rfl) (fun _ _ => rfl) : RewriteStep _ (ReassignablePartition45.first 1) (ReassignablePartition45.first 2) _ _)).whole {} rfl (fun _ => rfl) (fun _ h => ⟨h.2⟩)

theorem ReassignableTopic45.rewrites (version : Int16) : Rewrites (ReassignableTopic45.decode version {}) (ReassignableTopic45.wire version) (ReassignableTopic45.Fits version) :=
  ((.field (get := fun (t : ReassignableTopic45) => t.Name) (set := fun (t : ReassignableTopic45) x => { t with Name := x }) .string (fun _ => rfl) (fun _ => rfl) (fun _ _ => rfl) (fun _ _ => rfl) (fun _ _ => rfl) : RewriteStep _ (ReassignableTopic45.first 0) (ReassignableTopic45.first 1) _ _)
    |>.andThen (.structs (get := fun (t : ReassignableTopic45) => t.Partitions) (set := fun (t : ReassignableTopic45) x => { t with Partitions := x }) (ReassignablePartition45.rewrites version) (fun _ => rfl) (fun _ => rfl) (fun _ => rfl) (fun _ _ => rfl) (fun _ _ => rfl) (fun _ _ => rfl) : RewriteStep _ (ReassignableTopic45.first 1) (ReassignableTopic45.first 2) _ _)).whole {} rfl (fun _ => rfl) (fun _ h => ⟨h.1, h.2⟩)

theorem AlterPartitionReassignmentsRequest.rewrites (version : Int16) : Rewrites (AlterPartitionReassignmentsRequest.decode version {}) (AlterPartitionReassignmentsRequest.wire version) (AlterPartitionReassignmentsRequest.Fits version) :=
  ((.field (get := fun (t : AlterPartitionReassignmentsRequest) => t.TimeoutMs) (set := fun (t : AlterPartitionReassignmentsRequest) x => { t with TimeoutMs := x }) .int32 (fun _ => rfl) (fun _ => rfl) (fun _ _ => rfl) (fun _ _ => rfl) (fun _ _ => rfl) : RewriteStep _ (AlterPartitionReassignmentsRequest.first 0) (AlterPartitionReassignmentsRequest.first 1) _ _)
    |>.andThen (.structs (get := fun (t : AlterPartitionReassignmentsRequest) => t.Topics) (set := fun (t : AlterPartitionReassignmentsRequest) x => { t with Topics := x }) (ReassignableTopic45.rewrites version) (fun _ => rfl) (fun _ => rfl) (fun _ => rfl) (fun _ _ => rfl) (fun _ _ => rfl) (fun _ _ => rfl) : RewriteStep _ (AlterPartitionReassignmentsRequest.first 1) (AlterPartitionReassignmentsRequest.first 2) _ _)).whole {} rfl (fun _ => rfl) (fun _ h => ⟨h.2⟩)

theorem ReassignablePartitionResponse45.rewrites (version : Int16) : Rewrites (ReassignablePartitionResponse45.decode version {}) (ReassignablePartitionResponse45.wire version) (ReassignablePartitionResponse45.Fits version) :=
  ((.field (get := fun (t : ReassignablePartitionResponse45) => t.PartitionIndex) (set := fun (t : ReassignablePartitionResponse45) x => { t with PartitionIndex := x }) .int32 (fun _ => rfl) (fun _ => rfl) (fun _ _ => rfl) (fun _ _ => rfl) (fun _ _ => rfl) : RewriteStep _ (ReassignablePartitionResponse45.first 0) (ReassignablePartitionResponse45.first 1) _ _)
    |>.andThen (.field (get := fun (t : ReassignablePartitionResponse45) => t.ErrorCode) (set := fun (t : ReassignablePartitionResponse45) x => { t with ErrorCode := x }) .int16 (fun _ => rfl) (fun _ => rfl) (fun _ _ => rfl) (fun _ _ => rfl) (fun _ _ => rfl) : RewriteStep _ (ReassignablePartitionResponse45.first 1) (ReassignablePartitionResponse45.first 2) _ _)
    |>.andThen (.field (get := fun (t : ReassignablePartitionResponse45) => t.ErrorMessage) (set := fun (t : ReassignablePartitionResponse45) x => { t with ErrorMessage := x }) .string (fun _ => rfl) (fun _ => rfl) (fun _ _ => rfl) (fun _ _ => rfl) (fun _ _ => rfl) : RewriteStep _ (ReassignablePartitionResponse45.first 2) (ReassignablePartitionResponse45.first 3) _ _)).whole {} rfl (fun _ => rfl) (fun _ h => ⟨h.2⟩)

theorem ReassignableTopicResponse45.rewrites (version : Int16) : Rewrites (ReassignableTopicResponse45.decode version {}) (ReassignableTopicResponse45.wire version) (ReassignableTopicResponse45.Fits version) :=
  ((.field (get := fun (t : ReassignableTopicResponse45) => t.Name) (set := fun (t : ReassignableTopicResponse45) x => { t with Name := x }) .string (fun _ => rfl) (fun _ => rfl) (fun _ _ => rfl) (fun _ _ => rfl) (fun _ _ => rfl) : RewriteStep _ (ReassignableTopicResponse45.first 0) (ReassignableTopicResponse45.first 1) _ _)
    |>.andThen (.structs (get := fun (t : ReassignableTopicResponse45) => t.Partitions) (set := fun (t : ReassignableTopicResponse45) x => { t with Partitions := x }) (ReassignablePartitionResponse45.rewrites version) (fun _ => rfl) (fun _ => rfl) (fun _ => rfl) (fun _ _ => rfl) (fun _ _ => rfl) (fun _ _ => rfl) : RewriteStep _ (ReassignableTopicResponse45.first 1) (ReassignableTopicResponse45.first 2) _ _)).whole {} rfl (fun _ => rfl) (fun _ h => ⟨h.1, h.2⟩)

theorem AlterPartitionReassignmentsResponse.rewrites (version : Int16) : Rewrites (AlterPartitionReassignmentsResponse.decode version {}) (AlterPartitionReassignmentsResponse.wire version) (AlterPartitionReassignmentsResponse.Fits version) :=
  ((.field (get := fun (t : AlterPartitionReassignmentsResponse) => t.ThrottleTimeMs) (set := fun (t : AlterPartitionReassignmentsResponse) x => { t with ThrottleTimeMs := x }) .int32 (fun _ => rfl) (fun _ => rfl) (fun _ _ => rfl) (fun _ _ => rfl) (fun _ _ => rfl) : RewriteStep _ (AlterPartitionReassignmentsResponse.first 0) (AlterPartitionReassignmentsResponse.first 1) _ _)
    |>.andThen (.field (get := fun (t : AlterPartitionReassignmentsResponse) => t.ErrorCode) (set := fun (t : AlterPartitionReassignmentsResponse) x => { t with ErrorCode := x }) .int16 (fun _ => rfl) (fun _ => rfl) (fun _ _ => rfl) (fun _ _ => rfl) (fun _ _ => rfl) : RewriteStep _ (AlterPartitionReassignmentsResponse.first 1) (AlterPartitionReassignmentsResponse.first 2) _ _)
    |>.andThen (.field (get := fun (t : AlterPartitionReassignmentsResponse) => t.ErrorMessage) (set := fun (t : AlterPartitionReassignmentsResponse) x => { t with ErrorMessage := x }) .string (fun _ => rfl) (fun _ => rfl) (fun _ _ => rfl) (fun _ _ => rfl) (fun _ _ => rfl) : RewriteStep _ (AlterPartitionReassignmentsResponse.first 2) (AlterPartitionReassignmentsResponse.first 3) _ _)
    |>.andThen (.structs (get := fun (t : AlterPartitionReassignmentsResponse) => t.Responses) (set := fun (t : AlterPartitionReassignmentsResponse) x => { t with Responses := x }) (ReassignableTopicResponse45.rewrites version) (fun _ => rfl) (fun _ => rfl) (fun _ => rfl) (fun _ _ => rfl) (fun _ _ => rfl) (fun _ _ => rfl) : RewriteStep _ (AlterPartitionReassignmentsResponse.first 3) (AlterPartitionReassignmentsResponse.first 4) _ _)).whole {} rfl (fun _ => rfl) (fun _ h => ⟨h.1.2, h.2⟩)

theorem rewritesAlterPartitionReassignments : ∀ p ∈ typesAlterPartitionReassignments, ∀ v, Rewrites (p.1.decode v p.1.zero) (p.2.wire v) (p.2.Fits v) := by
  unfold typesAlterPartitionReassignments
  simp only [List.forall_mem_cons]
  exact ⟨AlterPartitionReassignmentsRequest.rewrites, ReassignableTopic45.rewrites, ReassignablePartition45.rewrites, AlterPartitionReassignmentsResponse.rewrites, ReassignableTopicResponse45.rewrites, ReassignablePartitionResponse45.rewrites, fun _ h => absurd h (by simp)⟩

end Kafka.Msg
