import Verif.Message.Rewrites
import Verif.Gen.Kept.CreateTopics
import Verif.Gen.All
/-!
Generated by tools/gen_messages.py: encoding CreateTopics messages that were decoded.
-/
namespace Kafka.Msg

theorem CreatableReplicaAssignment19.rewrites (version : Int16) : Rewrites (CreatableReplicaAssignment19.decode version {}) (CreatableReplicaAssignment19.wire version) (CreatableReplicaAssignment19.Fits version) :=
  ((.field (get := fun (t : CreatableReplicaAssignment19) => t.PartitionIndex) (set := fun (t : CreatableReplicaAssignment19) x => { t with PartitionIndex := x }) .int32 (fun _ => rfl) (fun _ => rfl) (fun _ _ => rfl) (fun _ _ => rfl) (fun _ _ => rfl) : RewriteStep _ (CreatableReplicaAssignment19.first 0) (CreatableReplicaAssignment19.first 1) _ _)
    |>.andThen (.field (get := fun (t : CreatableReplicaAssignment19) => t.BrokerIds) (set := fun (t : CreatableReplicaAssignment19) x => { t with BrokerIds := x }) .int32Array (fun _ => rfl) (fun _ => rfl) (fun _ _ => rfl) (fun _ _ => rfl) (fun _ _ => rfl) : RewriteStep _ (CreatableReplicaAssignment19.first 1) (CreatableReplicaAssignment19.first 2) _ _)).whole {} rfl (fun _ => rfl) (fun _ h => ⟨h.2⟩)

theorem CreateableTopicConfig19.rewrites (version : Int16) : Rewrites (CreateableTopicConfig19.decode version {}) (CreateableTopicConfig19.wire version) (CreateableTopicConfig19.Fits version) :=
  ((.field (get := fun (t : CreateableTopicConfig19) => t.Name) (set := fun (t : CreateableTopicConfig19) x => { t with Name := x }) .string (fun _ => rfl) (fun _ => rfl) (fun _ _ => rfl) (fun _ _ => rfl) (fun _ _ => rfl) : RewriteStep _ (CreateableTopicConfig19.first 0) (CreateableTopicConfig19.first 1) _ _)
    |>.andThen (.field (get := fun (t : CreateableTopicConfig19) => t.Value) (set := fun (t : CreateableTopicConfig19) x => { t with Value := x }) .string (fun _ => rfl) (fun _ => rfl) (fun _ _ => rfl) (fun _ _ => rfl) (fun _ _ => rfl) : RewriteStep _ (CreateableTopicConfig19.first 1) (CreateableTopicConfig19.first 2) _ _)).whole {} rfl (fun _ => rfl) (fun _ h => ⟨h.1, h.2⟩)

theorem CreatableTopic19.rewrites (version : Int16) : Rewrites (CreatableTopic19.decode version {}) (CreatableTopic19.wire version) (CreatableTopic19.Fits version) :=
  ((.field (get := fun (t : CreatableTopic19) => t.Name) (set := fun (t : CreatableTopic19) x => { t with Name := x }) .string (fun _ => rfl) (fun _ => rfl) (fun _ _ => rfl) (fun _ _ => rfl) (fun _ _ => rfl) : RewriteStep _ (CreatableTopic19.first 0) (CreatableTopic19.first 1) _ _)
    |>.andThen (.field (get := fun (t : CreatableTopic19) => t.NumPartitions) (set := fun (t : CreatableTopic19) x => { t with NumPartitions := x }) .int32 (fun _ => rfl) (fun _ => rfl) (fun _ _ => rfl) (fun _ _ => rfl) (fun _ _ => rfl) : RewriteStep _ (CreatableTopic19.first 1) (CreatableTopic19.first 2) _ _)
    |>.andThen (.field (get := fun (t : CreatableTopic19) => t.ReplicationFactor) (set := fun (t : CreatableTopic19) x => { t with ReplicationFactor := x }) .int16 (fun _ => rfl) (fun _ => rfl) (fun _ _ => rfl) (fun _ _ => rfl) (fun _ _ => rfl) : RewriteStep _ (CreatableTopic19.first 2) (CreatableTopic19.first 3) _ _)
    |>.andThen (.structs (get := fun (t : CreatableTopic19) => t.Assignments) (set := fun (t : CreatableTopic19) x => { t with Assignments := x }) (CreatableReplicaAssignment19.rewrites version) (fun _ => rfl) (fun _ => rfl) (fun _ => rfl) (fun _ _ => rfl) (fun _ _ => rfl) (fun _ _ => rfl) : RewriteStep _ (CreatableTopic19.first 3) (CreatableTopic19.first 4) _ _)
    |>.andThen (.structs (get := fun (t : CreatableTopic19) => t.Configs) (set := fun (t : CreatableTopic19) x => { t with Configs := x }) (CreateableTopicConfig19.rewrites version) (fun _ => rfl) (fun _ => rfl) (fun _ => rfl) (fun _ _ => rfl) (fun _ _ => rfl) (fun _ _ => rfl) : RewriteStep _ (CreatableTopic19.first 4) (CreatableTopic19.first 5) _ _)).whole {} rfl (fun _ => rfl) (fun _ h => ⟨h.1.1.1.1, h.1.2, h.2⟩)

theorem CreateTopicsRequest.rewrites (version : Int16) : Rewrites (CreateTopicsRequest.decode version {}) (CreateTopicsRequest.wire version) (CreateTopicsRequest.Fits version) :=
  ((.structs (get := fun (t : CreateTopicsRequest) => t.Topics) (set := fun (t : CreateTopicsRequest) x => { t with Topics := x }) (CreatableTopic19.rewrites version) (fun _ => rfl) (fun _ => rfl) (fun _ => rfl) (fun _ _ => rfl) (fun _ _ => rfl) (fun _ _ => rfl) : RewriteStep _ (CreateTopicsRequest.first 0) (CreateTopicsRequest.first 1) _ _)
    |>.andThen (.field (get := fun (t : CreateTopicsRequest) => t.timeoutMs) (set := fun (t : CreateTopicsRequest) x => { t with timeoutMs := x }) .int32 (fun _ => rfl) (fun _ => rfl) (fun _ _ => rfl) (fun _ _ => rfl) (fun _ _ => rfl) : RewriteStep _ (CreateTopicsRequest.first 1) (CreateTopicsRequest.first 2) _ _)
    |>.andThen (.onlyIf (g := version ≥ 1) (.field (get := fun (t : CreateTopicsRequest) => t.validateOnly) (set := fun (t : CreateTopicsRequest) x => { t with validateOnly := x }) .bool (fun _ => rfl) (fun _ => rfl) (fun _ _ => rfl) (fun _ _ => rfl) (fun _ _ => rfl)) (fun _ => rfl) : RewriteStep _ (CreateTopicsRequest.first 2) (CreateTopicsRequest.first 3) _ _)).whole {} rfl (fun _ => rfl) (fun _ h => ⟨h.1.1⟩)

theorem CreatableTopicConfigs19.rewrites (version : Int16) : Rewrites (CreatableTopicConfigs19.decode version {}) (CreatableTopicConfigs19.wire version) (CreatableTopicConfigs19.Fits version) :=
  ((.onlyIf (g := version ≥ 5) (.field (get := fun (t : CreatableTopicConfigs19) => t.Name) (set := fun (t : CreatableTopicConfigs19) x => { t with Name := x }) .string (fun _ => rfl) (fun _ => rfl) (fun _ _ => rfl) (fun _ _ => rfl) (fun _ _ => rfl)) (fun _ => rfl) : RewriteStep _ (CreatableTopicConfigs19.first 0) (CreatableTopicConfigs19.first 1) _ _)
    |>.andThen (.onlyIf (g := version ≥ 5) (.field (get := fun (t : CreatableTopicConfigs19) => t.Value) (set := fun (t : CreatableTopicConfigs19) x => { t with Value := x }) .string (fun _ => rfl) (fun _ => rfl) (fun _ _ => rfl) (fun _ _ => rfl) (fun _ _ => rfl)) (fun _ => rfl) : RewriteStep _ (CreatableTopicConfigs19.first 1) (CreatableTopicConfigs19.first 2) _ _)
    |>.andThen (.onlyIf (g := version ≥ 5) (.field (get := fun (t : CreatableTopicConfigs19) => t.ReadOnly) (set := fun (t : CreatableTopicConfigs19) x => { t with ReadOnly := x }) .bool (fun _ => rfl) (fun _ => rfl) (fun _ _ => rfl) (fun _ _ => rfl) (fun _ _ => rfl)) (fun _ => rfl) : RewriteStep _ (CreatableTopicConfigs19.first 2) (CreatableTopicConfigs19.first 3) _ _)
    |>.andThen (.onlyIf (g := version ≥ 5) (.field (get := fun (t : CreatableTopicConfigs19) => t.ConfigSource) (set := fun (t : CreatableTopicConfigs19) x => { t with ConfigSource := x }) .int8 (fun _ => rfl) (fun _ => rfl) (fun _ _ => rfl) (fun _ _ => rfl) (fun _ _ => rfl)) (fun _ => rfl) : RewriteStep _ (CreatableTopicConfigs19.first 3) (CreatableTopicConfigs19.first 4) _ _)
    |>.andThen (.onlyIf (g := version ≥ 5) (.field (get := fun (t : CreatableTopicConfigs19) => t.IsSensitive) (set := fun (t : CreatableTopicConfigs19) x => { t with IsSensitive := x }) .bool (fun _ => rfl) (fun _ => rfl) (fun _ _ => rfl) (fun _ _ => rfl) (fun _ _ => rfl)) (fun _ => rfl) : RewriteStep _ (CreatableTopicConfigs19.first 4) (CreatableTopicConfigs19.first 5) _ _)).whole {} rfl (fun _ => rfl) (fun _ h => ⟨h.1.1.1.1, h.1.1.1.2⟩)

theorem CreatableTopicResult19.rewrites (version : Int16) : Rewrites (CreatableTopicResult19.decode version {}) (CreatableTopicResult19.wire version) (CreatableTopicResult19.Fits version) :=
  ((.field (get := fun (t : CreatableTopicResult19) => t.Name) (set := fun (t : CreatableTopicResult19) x => { t with Name := x }) .string (fun _ => rfl) (fun _ => rfl) (fun _ _ => rfl) (fun _ _ => rfl) (fun _ _ => rfl) : RewriteStep _ (CreatableTopicResult19.first 0) (CreatableTopicResult19.first 1) _ _)
    |>.andThen (.field (get := fun (t : CreatableTopicResult19) => t.ErrorCode) (set := fun (t : CreatableTopicResult19) x => { t with ErrorCode := x }) .int16 (fun _ => rfl) (fun _ => rfl) (fun _ _ => rfl) (fun _ _ => rfl) (fun _ _ => rfl) : RewriteStep _ (CreatableTopicResult19.first 1) (CreatableTopicResult19.first 2) _ _)
    |>.andThen (.onlyIf (g := version ≥ 1) (.field (get := fun (t : CreatableTopicResult19) => t.ErrorMessage) (set := fun (t : CreatableTopicResult19) x => { t with ErrorMessage := x }) .string (fun _ => rfl) (fun _ => rfl) (fun _ _ => rfl) (fun _ _ => rfl) (fun _ _ => rfl)) (fun _ => rfl) : RewriteStep _ (CreatableTopicResult19.first 2) (CreatableTopicResult19.first 3) _ _)
    |>.andThen (.onlyIf (g := version ≥ 5) (.field (get := fun (t : CreatableTopicResult19) => t.TopicConfigErrorCode) (set := fun (t : CreatableTopicResult19) x => { t with TopicConfigErrorCode := x }) .int16 (fun _ => rfl) (fun _ => rfl) (fun _ _ => rfl) (fun _ _ => rfl) (fun _ _ => rfl)) (fun _ => rfl) : RewriteStep _ (CreatableTopicResult19.first 3) (CreatableTopicResult19.first 4) _ _)
    |>.andThen (.onlyIf (g := version ≥ 5) (.field (get := fun (t : CreatableTopicResult19) => t.NumPartitions) (set := fun (t : CreatableTopicResult19) x => { t with NumPartitions := x }) .int32 (fun _ => rfl) (fun _ => rfl) (fun _ _ => rfl) (fun _ _ => rfl) (fun _ _ => rfl)) (fun _ => rfl) : RewriteStep _ (CreatableTopicResult19.first 4) (CreatableTopicResult19.first 5) _ _)
    |>.andThen (.onlyIf (g := version ≥ 5) (.field (get := fun (t : CreatableTopicResult19) => t.ReplicationFactor) (set := fun (t : CreatableTopicResult19) x => { t with ReplicationFactor := x }) .int16 (fun _ => rfl) (fun _ => rfl) (fun _ _ => rfl) (fun _ _ => rfl) (fun _ _ => rfl)) (fun _ => rfl) : RewriteStep _ (CreatableTopicResult19.first 5) (CreatableTopicResult19.first 6) _ _)
    |>.andThen (.onlyIf (g := version ≥ 5) (.structs (get := fun (t : CreatableTopicResult19) => t.Configs) (set := fun (t : CreatableTopicResult19) x => { t with Configs := x }) (CreatableTopicConfigs19.rewrites version) (fun _ => rfl) (fun _ => rfl) (fun _ => rfl) (fun _ _ => rfl) (fun _ _ => rfl) (fun _ _ => rfl)) (fun _ => rfl) : RewriteStep _ (CreatableTopicResult19.first 6) (CreatableTopicResult19.first 7) _ _)).whole {} rfl (fun _ => rfl) (fun _ h => ⟨h.1.1.1.1.1.1, h.1.1.1.1.2, h.2⟩)

theorem CreateTopicsResponse.rewrites (version : Int16) : Rewrites (CreateTopicsResponse.decode version {}) (CreateTopicsResponse.wire version) (CreateTopicsResponse.Fits version) :=
  ((.onlyIf (g := version ≥ 2) (.field (get := fun (t : CreateTopicsResponse) => t.ThrottleTimeMs) (set := fun (t : CreateTopicsResponse) x => { t with ThrottleTimeMs := x }) .int32 (fun _ => rfl) (fun _ => rfl) (fun _ _ => rfl) (fun _ _ => rfl) (fun _ _ => rfl)) (fun _ => rfl) : RewriteStep _ (CreateTopicsResponse.first 0) (CreateTopicsResponse.first 1) _ _)
    |>.andThen (.structs (get := fun (t : CreateTopicsResponse) => t.Topics) (set := fun (t : CreateTopicsResponse) x => { t with Topics := x }) (CreatableTopicResult19.rewrites version) (fun _ => rfl) (fun _ => rfl) (fun _ => rfl) (fun _ _ => rfl) (fun _ _ => rfl) (fun _ _ => rfl) : RewriteStep _ (CreateTopicsResponse.first 1) (CreateTopicsResponse.first 2) _ _)).whole {} rfl (fun _ => rfl) (fun _ h => ⟨h.2⟩)

theorem rewritesCreateTopics : ∀ p ∈ typesCreateTopics, ∀ v, Rewrites (p.1.decode v p.1.zero) (p.2.wire v) (p.2.Fits v) := by
  unfold typesCreateTopics
  simp only [List.forall_mem_cons]
  exact ⟨CreateTopicsRequest.rewrites, CreatableTopic19.rewrites, CreatableReplicaAssignment19.rewrites, CreateableTopicConfig19.rewrites, CreateTopicsResponse.rewrites, CreatableTopicResult19.rewrites, CreatableTopicConfigs19.rewrites, fun _ h => absurd h (by simp)⟩

end Kafka.Msg
