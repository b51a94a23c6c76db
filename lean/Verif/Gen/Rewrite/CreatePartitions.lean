import Verif.Message.Rewrites
import Verif.Gen.Kept.CreatePartitions
import Verif.Gen.All
/-!
Generated by tools/gen_messages.py: encoding CreatePartitions messages that were decoded.
-/
namespace Kafka.Msg

theorem CreatePartitionsAssignment37.rewrites (version : Int16) : Rewrites (CreatePartitionsAssignment37.decode version {}) (CreatePartitionsAssignment37.wire version) (CreatePartitionsAssignment37.Fits version) :=
  ((.field (get := fun (t : CreatePartitionsAssignment37) => t.BrokerIds) (set := fun (t : CreatePartitionsAssignment37) x => { t with BrokerIds := x }) .int32Array (fun _ => rfl) (fun _ => rfl) (fun _ _ => rfl) (fun _ _ => rfl) (fun _ _ => rfl) : RewriteStep _ (CreatePartitionsAssignment37.first 0) (CreatePartitionsAssignment37.first 1) _ _)).whole {} rfl (fun _ => rfl) (fun _ h => ⟨h⟩)

theorem CreatePartitionsTopic37.rewrites (version : Int16) : Rewrites (CreatePartitionsTopic37.decode version {}) (CreatePartitionsTopic37.wire version) (CreatePartitionsTopic37.Fits version) :=
  ((.field (get := fun (t : CreatePartitionsTopic37) => t.Name) (set := fun (t : CreatePartitionsTopic37) x => { t with Name := x }) .string (fun _ => rfl) (fun _ => rfl) (fun _ _ => rfl) (fun _ _ => rfl) (fun _ _ => rfl) : RewriteStep _ (CreatePartitionsTopic37.first 0) (CreatePartitionsTopic37.first 1) _ _)
    |>.andThen (.field (get := fun (t : CreatePartitionsTopic37) => t.Count) (set := fun (t : CreatePartitionsTopic37) x => { t with Count := x }) .int32 (fun _ => rfl) (fun _ => rfl) (fun _ _ => rfl) (fun _ _ => rfl) (fun _ _ => rfl) : RewriteStep _ (CreatePartitionsTopic37.first 1) (CreatePartitionsTopic37.first 2) _ _)
    |>.andThen (.structs (get := fun (t : CreatePartitionsTopic37) => t.Assignments) (set := fun (t : CreatePartitionsTopic37) x => { t with Assignments := x }) (CreatePartitionsAssignment37.rewrites version) (fun _ => rfl) (fun _ => rfl) (fun _ => rfl) (fun _ _ => rfl) (fun _ _ => rfl) (fun _ _ => rfl) : RewriteStep _ (CreatePartitionsTopic37.first 2) (CreatePartitionsTopic37.first 3) _ _)).whole {} rfl (fun _ => rfl) (fun _ h => ⟨h.1.1, h.2⟩)

theorem CreatePartitionsRequest.rewrites (version : Int16) : Rewrites (CreatePartitionsRequest.decode version {}) (CreatePartitionsRequest.wire version) (CreatePartitionsRequest.Fits version) :=
  ((.structs (get := fun (t : CreatePartitionsRequest) => t.Topics) (set := fun (t : CreatePartitionsRequest) x => { t with Topics := x }) (CreatePartitionsTopic37.rewrites version) (fun _ => rfl) (fun _ => rfl) (fun _ => rfl) (fun _ _ => rfl) (fun _ _ => rfl) (fun _ _ => rfl) : RewriteStep _ (CreatePartitionsRequest.first 0) (CreatePartitionsRequest.first 1) _ _)
    |>.andThen (.field (get := fun (t : CreatePartitionsRequest) => t.TimeoutMs) (set := fun (t : CreatePartitionsRequest) x => { t with TimeoutMs := x }) .int32 (fun _ => rfl) (fun _ => rfl) (fun _ _ => rfl) (fun _ _ => rfl) (fun _ _ => rfl) : RewriteStep _ (CreatePartitionsRequest.first 1) (CreatePartitionsRequest.first 2) _ _)
    |>.andThen (.field (get := fun (t : CreatePartitionsRequest) => t.ValidateOnly) (set := fun (t : CreatePartitionsRequest) x => { t with ValidateOnly := x }) .bool (fun _ => rfl) (fun _ => rfl) (fun _ _ => rfl) (fun _ _ => rfl) (fun _ _ => rfl) : RewriteStep _ (CreatePartitionsRequest.first 2) (CreatePartitionsRequest.first 3) _ _)).whole {} rfl (fun _ => rfl) (fun _ h => ⟨h.1.1⟩)

theorem CreatePartitionsTopicResult37.rewrites (version : Int16) : Rewrites (CreatePartitionsTopicResult37.decode version {}) (CreatePartitionsTopicResult37.wire version) (CreatePartitionsTopicResult37.Fits version) :=
  ((.field (get := fun (t : CreatePartitionsTopicResult37) => t.Name) (set := fun (t : CreatePartitionsTopicResult37) x => { t with Name := x }) .string (fun _ => rfl) (fun _ => rfl) (fun _ _ => rfl) (fun _ _ => rfl) (fun _ _ => rfl) : RewriteStep _ (CreatePartitionsTopicResult37.first 0) (CreatePartitionsTopicResult37.first 1) _ _)
    |>.andThen (.field (get := fun (t : CreatePartitionsTopicResult37) => t.ErrorCode) (set := fun (t : CreatePartitionsTopicResult37) x => { t with ErrorCode := x }) .int16 (fun _ => rfl) (fun _ => rfl) (fun _ _ => rfl) (fun _ _ => rfl) (fun _ _ => rfl) : RewriteStep _ (CreatePartitionsTopicResult37.first 1) (CreatePartitionsTopicResult37.first 2) _ _)
    |>.andThen (.field (get := fun (t : CreatePartitionsTopicResult37) => t.ErrorMessage) (set := fun (t : CreatePartitionsTopicResult37) x => { t with ErrorMessage := x }) .string (fun _ => rfl) (fun _ => rfl) (fun _ _ => rfl) (fun _ _ => rfl) (fun _ _ => rfl) : RewriteStep _ (CreatePartitionsTopicResult37.first 2) (CreatePartitionsTopicResult37.first 3) _ _)).whole {} rfl (fun _ => rfl) (fun _ h => ⟨h.1.1, h.2⟩)

theorem CreatePartitionsResponse.rewrites (version : Int16) : Rewrites (CreatePartitionsResponse.decode version {}) (CreatePartitionsResponse.wire version) (CreatePartitionsResponse.Fits version) :=
  ((.field (get := fun (t : CreatePartitionsResponse) => t.ThrottleTimeMs) (set := fun (t : CreatePartitionsResponse) x => { t with ThrottleTimeMs := x }) .int32 (fun _ => rfl) (fun _ => rfl) (fun _ _ => rfl) (fun _ _ => rfl) (fun _ _ => rfl) : RewriteStep _ (CreatePartitionsResponse.first 0) (CreatePartitionsResponse.first 1) _ _)
    |>.andThen (.structs (get := fun (t : CreatePartitionsResponse) => t.Results) (set := fun (t : CreatePartitionsResponse) x => { t with Results := x }) (CreatePartitionsTopicResult37.rewrites version) (fun _ => rfl) (fun _ => rfl) (fun _ => rfl) (fun _ _ => rfl) (fun _ _ => rfl) (fun _ _ => rfl) : RewriteStep _ (CreatePartitionsResponse.first 1) (CreatePartitionsResponse.first 2) _ _)).whole {} rfl (fun _ => rfl) (fun _ h => ⟨h.2⟩)

theorem rewritesCreatePartitions : ∀ p ∈ typesCreatePartitions, ∀ v, Rewrites (p.1.decode v p.1.zero) (p.2.wire v) (p.2.Fits v) := by
  unfold typesCreatePartitions
  simp only [List.forall_mem_cons]
  exact ⟨CreatePartitionsRequest.rewrites, CreatePartitionsTopic37.rewrites, CreatePartitionsAssignment37.rewrites, CreatePartitionsResponse.rewrites, CreatePartitionsTopicResult37.rewrites, fun _ h => absurd h (by simp)⟩

end Kafka.Msg
