import Verif.Message.Rewrites
import Verif.Gen.Kept.ListPartitionReassignments
import Verif.Gen.All
/-!
Generated by tools/gen_messages.py: encoding ListPartitionReassignments messages that were decoded.
-/
namespace Kafka.Msg

theorem ListPartitionReassignmentsTopics46.rewrites (version : Int16) : Rewrites (ListPartitionReassignmentsTopics46.decode version {}) (ListPartitionReassignmentsTopics46.wire version) (ListPartitionReassignmentsTopics46.Fits version) :=
  ((.field (get := fun (t : ListPartitionReassignmentsTopics46) => t.Name) (set := fun (t : ListPartitionReassignmentsTopics46) x => { t with Name := x }) .string (fun _ => rfl) (fun _ => rfl) (fun _ _ => rfl) (fun _ _ => rfl) (fun _ _ => rfl) : RewriteStep _ (ListPartitionReassignmentsTopics46.first 0) (ListPartitionReassignmentsTopics46.first 1) _ _)
    |>.andThen (.field (get := fun (t : ListPartitionReassignmentsTopics46) => t.PartitionIndexes) (set := fun (t : ListPartitionReassignmentsTopics46) x => { t with PartitionIndexes := x }) .int32Array (fun _ => rfl) (fun _ => rfl) (fun _ _ => rfl) (fun _ _ => rfl) (fun _ _ => rfl) : RewriteStep _ (ListPartitionReassignmentsTopics46.first 1) (ListPartitionReassignmentsTopics46.first 2) _ _)).whole {} rfl (fun _ => rfl) (fun _ h => ⟨h.1, h.2⟩)

theorem ListPartitionReassignmentsRequest.rewrites (version : Int16) : Rewrites (ListPartitionReassignmentsRequest.decode version {}) (ListPartitionReassignmentsRequest.wire version) (ListPartitionReassignmentsRequest.Fits version) :=
  ((.field (get := fun (t : ListPartitionReassignmentsRequest) => t.TimeoutMs) (set := fun (t : ListPartitionReassignmentsRequest) x => { t with TimeoutMs := x }) .int32 (fun _ => rfl) (fun _ => rfl) (fun _ _ => rfl) (fun _ _ => rfl) (fun _ _ => rfl) : RewriteStep _ (ListPartitionReassignmentsRequest.first 0) (ListPartitionReassignmentsRequest.first 1) _ _)
    |>.andThen (.structs (get := fun (t : ListPartitionReassignmentsRequest) => t.Topics) (set := fun (t : ListPartitionReassignmentsRequest) x => { t with Topics := x }) (ListPartitionReassignmentsTopics46.rewrites version) (fun _ => rfl) (fun _ => rfl) (fun _ => rfl) (fun _ _ => rfl) (fun _ _ => rfl) (fun _ _ => rfl) : RewriteStep _ (ListPartitionReassignmentsRequest.first 1) (ListPartitionReassignmentsRequest.first 2) _ _)).whole {} rfl (fun _ => rfl) (fun _ h => ⟨h.2⟩)

theorem OngoingPartitionReassignment46.rewrites (version : Int16) : Rewrites (OngoingPartitionReassignment46.decode version {}) (OngoingPartitionReassignment46.wire version) (OngoingPartitionReassignment46.Fits version) :=
  ((.field (get := fun (t : OngoingPartitionReassignment46) => t.PartitionIndex) (set := fun (t : OngoingPartitionReassignment46) x => { t with PartitionIndex := x }) .int32 (fun _ => rfl) (fun _ => rfl) (fun _ _ => rfl) (fun _ _ => rfl) (fun _ _ => rfl) : RewriteStep _ (OngoingPartitionReassignment46.first 0) (OngoingPartitionReassignment46.first 1) _ _)
    |>.andThen (.field (get := fun (t : OngoingPartitionReassignment46) => t.Replicas) (set := fun (t : OngoingPartitionReassignment46) x => { t with Replicas := x }) .int32Array (fun _ => rfl) (fun _ => rfl) (fun _ _ => rfl) (fun _ _ => rfl) (fun _ _ => rfl) : RewriteStep _ (OngoingPartitionReassignment46.first 1) (OngoingPartitionReassignment46.first 2) _ _)
    |>.andThen (.field (get := fun (t : OngoingPartitionReassignment46) => t.AddingReplicas) (set := fun (t : OngoingPartitionReassignment46) x => { t with AddingReplicas := x }) .int32Array (fun _ => rfl) (fun _ => rfl) (fun _ _ => rfl) (fun _ _ => rfl) (fun _ _ => rfl) : RewriteStep _ (OngoingPartitionReassignment46.first 2) (OngoingPartitionReassignment46.first 3) _ _)
    |>.andThen (.field (get := fun (t : OngoingPartitionReassignment46) => t.RemovingReplicas) (set := fun (t : OngoingPartitionReassignment46) x => { t with RemovingReplicas := x }) .int32Array (fun _ => rfl) (fun _ => rfl) (fun _ _ => rfl) (fun _ _ => rfl) (fun _ _ => rfl) : RewriteStep _ (OngoingPartitionReassignment46.first 3) (OngoingPartitionReassignment46.first 4) _ _)).whole {} rfl (fun _ => rfl) (fun _ h => ⟨h.1.1.2, h.1.2, h.2⟩)

theorem OngoingTopicReassignment46.rewrites (version : Int16) : Rewrites (OngoingTopicReassignment46.decode version {}) (OngoingTopicReassignment46.wire version) (OngoingTopicReassignment46.Fits version) :=
  ((.field (get := fun (t : OngoingTopicReassignment46) => t.Name) (set := fun (t : OngoingTopicReassignment46) x => { t with Name := x }) .string (fun _ => rfl) (fun _ => rfl) (fun _ _ => rfl) (fun _ _ => rfl) (fun _ _ => rfl) : RewriteStep _ (OngoingTopicReassignment46.first 0) (OngoingTopicReassignment46.first 1) _ _)
    |>.andThen (.structs (get := fun (t : OngoingTopicReassignment46) => t.Partitions) (set := fun (t : OngoingTopicReassignment46) x => { t with Partitions := x }) (OngoingPartitionReassignment46.rewrites version) (fun _ => rfl) (fun _ => rfl) (fun _ => rfl) (fun _ _ => rfl) (fun _ _ => rfl) (fun _ _ => rfl) : RewriteStep _ (OngoingTopicReassignment46.first 1) (OngoingTopicReassignment46.first 2) _ _)).whole {} rfl (fun _ => rfl) (fun _ h => ⟨h.1, h.2⟩)

theorem ListPartitionReassignmentsResponse.rewrites (version : Int16) : Rewrites (ListPartitionReassignmentsResponse.decode version {}) (ListPartitionReassignmentsResponse.wire version) (ListPartitionReassignmentsResponse.Fits version) :=
  ((.field (get := fun (t : ListPartitionReassignmentsResponse) => t.ThrottleTimeMs) (set := fun (t : ListPartitionReassignmentsResponse) x => { t with ThrottleTimeMs := x }) .int32 (fun _ => rfl) (fun _ => rfl) (fun _ _ => rfl) (fun _ _ => rfl) (fun _ _ => rfl) : RewriteStep _ (ListPartitionReassignmentsResponse.first 0) (ListPartitionReassignmentsResponse.first 1) _ _)
    |>.andThen (.field (get := fun (t : ListPartitionReassignmentsResponse) => t.ErrorCode) (set := fun (t : ListPartitionReassignmentsResponse) x => { t with ErrorCode := x }) .int16 (fun _ => rfl) (fun _ => rfl) (fun _ _ => rfl) (fun _ _ => rfl) (fun _ _ => rfl) : RewriteStep _ (ListPartitionReassignmentsResponse.first 1) (ListPartitionReassignmentsResponse.first 2) _ _)
    |>.andThen (.field (get := fun (t : ListPartitionReassignmentsResponse) => t.ErrorMessage) (set := fun (t : ListPartitionReassignmentsResponse) x => { t with ErrorMessage := x }) .string (fun _ => rfl) (fun _ => rfl) (fun _ _ => rfl) (fun _ _ => rfl) (fun _ _ => rfl) : RewriteStep _ (ListPartitionReassignmentsResponse.first 2) (ListPartitionReassignmentsResponse.first 3) _ _)
    |>.andThen (.structs (get := fun (t : ListPartitionReassignmentsResponse) => t.Topics) (set := fun (t : ListPartitionReassignmentsResponse) x => { t with Topics := x }) (OngoingTopicReassignment46.rewrites version) (fun _ => rfl) (fun _ => rfl) (fun _ => rfl) (fun _ _ => rfl) (fun _ _ => rfl) (fun _ _ => rfl) : RewriteStep _ (ListPartitionReassignmentsResponse.first 3) (ListPartitionReassignmentsResponse.first 4) _ _)).whole {} rfl (fun _ => rfl) (fun _ h => ⟨h.1.2, h.2⟩)

theorem rewritesListPartitionReassignments : ∀ p ∈ typesListPartitionReassignments, ∀ v, Rewrites (p.1.decode v p.1.zero) (p.2.wire v) (p.2.Fits v) := by
  unfold typesListPartitionReassignments
  simp only [List.forall_mem_cons]
  exact ⟨ListPartitionReassignmentsRequest.rewrites, ListPartitionReassignmentsTopics46.rewrites, ListPartitionReassignmentsResponse.rewrites, OngoingTopicReassignment46.rewrites, OngoingPartitionReassignment46.rewrites, fun _ h => absurd h (by simp)⟩

end Kafka.Msg
