import Verif.Message.Rewrites
import Verif.Gen.Kept.Metadata
import Verif.Gen.All
/-!
Generated by tools/gen_messages.py: encoding Metadata messages that were decoded.
-/
namespace Kafka.Msg

theorem MetadataRequestTopic3.rewrites (version : Int16) : Rewrites (MetadataRequestTopic3.decode version {}) (MetadataRequestTopic3.wire version) (MetadataRequestTopic3.Fits version) :=
  ((.field (get := fun (t : MetadataRequestTopic3) => t.Name) (set := fun (t : MetadataRequestTopic3) x => { t with Name := x }) .string (fun _ => rfl) (fun _ => rfl) (fun _ _ => rfl) (fun _ _ => rfl) (fun _ _ => rfl) : RewriteStep _ (MetadataRequestTopic3.first 0) (MetadataRequestTopic3.first 1) _ _)).whole {} rfl (fun _ => rfl) (fun _ h => ⟨h⟩)

theorem MetadataRequest.rewrites (version : Int16) : Rewrites (MetadataRequest.decode version {}) (MetadataRequest.wire version) (MetadataRequest.Fits version) :=
  ((.structs (get := fun (t : MetadataRequest) => t.Topics) (set := fun (t : MetadataRequest) x => { t with Topics := x }) (MetadataRequestTopic3.rewrites version) (fun _ => rfl) (fun _ => rfl) (fun _ => rfl) (fun _ _ => rfl) (fun _ _ => rfl) (fun _ _ => rfl) : RewriteStep _ (MetadataRequest.first 0) (MetadataRequest.first 1) _ _)
    |>.andThen (.onlyIf (g := version ≥ 4) (.field (get := fun (t : MetadataRequest) => t.AllowAutoTopicCreation) (set := fun (t : MetadataRequest) x => { t with AllowAutoTopicCreation := x }) .bool (fun _ => rfl) (fun _ => rfl) (fun _ _ => rfl) (fun _ _ => rfl) (fun _ _ => rfl)) (fun _ => rfl) : RewriteStep _ (MetadataRequest.first 1) (MetadataRequest.first 2) _ _)
    |>.andThen (.onlyIf (g := version ≥ 8) (.field (get := fun (t : MetadataRequest) => t.IncludeClusterAuthorizedOperations) (set := fun (t : MetadataRequest) x => { t with IncludeClusterAuthorizedOperations := x }) .bool (fun _ => rfl) (fun _ => rfl) (fun _ _ => rfl) (fun _ _ => rfl) (fun _ _ => rfl)) (fun _ => rfl) : RewriteStep _ (MetadataRequest.first 2) (MetadataRequest.first 3) _ _)
    |>.andThen (.onlyIf (g := version ≥ 8) (.field (get := fun (t : MetadataRequest) => t.IncludeTopicAuthorizedOperations) (set := fun (t : MetadataRequest) x => { t with IncludeTopicAuthorizedOperations := x }) .bool (fun _ => rfl) (fun _ => rfl) (fun _ _ => rfl) (fun _ _ => rfl) (fun _ _ => rfl)) (fun _ => rfl) : RewriteStep _ (MetadataRequest.first 3) (MetadataRequest.first 4) _ _)).whole {} rfl (fun _ => rfl) (fun _ h => ⟨h.1.1.1⟩)

theorem MetadataResponseBroker3.rewrites (version : Int16) : Rewrites (MetadataResponseBroker3.decode version {}) (MetadataResponseBroker3.wire version) (MetadataResponseBroker3.Fits version) :=
  ((.field (get := fun (t : MetadataResponseBroker3) => t.NodeId) (set := fun (t : MetadataResponseBroker3) x => { t with NodeId := x }) .int32 (fun _ => rfl) (fun _ => rfl) (fun _ _ => rfl) (fun _ _ => rfl) (fun _ _ => rfl) : RewriteStep _ (MetadataResponseBroker3.first 0) (MetadataResponseBroker3.first 1) _ _)
    |>.andThen (.field (get := fun (t : MetadataResponseBroker3) => t.Host) (set := fun (t : MetadataResponseBroker3) x => { t with Host := x }) .string (fun _ => rfl) (fun _ => rfl) (fun _ _ => rfl) (fun _ _ => rfl) (fun _ _ => rfl) : RewriteStep _ (MetadataResponseBroker3.first 1) (MetadataResponseBroker3.first 2) _ _)
    |>.andThen (.field (get := fun (t : MetadataResponseBroker3) => t.Port) (set := fun (t : MetadataResponseBroker3) x => { t with Port := x }) .int32 (fun _ => rfl) (fun _ => rfl) (fun _ _ => rfl) (fun _ _ => rfl) (fun _ _ => rfl) : RewriteStep _ (MetadataResponseBroker3.first 2) (MetadataResponseBroker3.first 3) _ _)
    |>.andThen (.onlyIf (g := version ≥ 1) (.field (get := fun (t : MetadataResponseBroker3) => t.Rack) (set := fun (t : MetadataResponseBroker3) x => { t with Rack := x }) .string (fun _ => rfl) (fun _ => rfl) (fun _ _ => rfl) (fun _ _ => rfl) (fun _ _ => rfl)) (fun _ => rfl) : RewriteStep _ (MetadataResponseBroker3.first 3) (MetadataResponseBroker3.first 4) _ _)).whole {} rfl (fun _ => rfl) (fun _ h => ⟨h.1.1.2, h.2⟩)

theorem MetadataResponsePartition3.rewrites (version : Int16) : Rewrites (MetadataResponsePartition3.decode version {}) (MetadataResponsePartition3.wire version) (MetadataResponsePartition3.Fits version) :=
  ((.field (get := fun (t : MetadataResponsePartition3) => t.ErrorCode) (set := fun (t : MetadataResponsePartition3) x => { t with ErrorCode := x }) .int16 (fun _ => rfl) (fun _ => rfl) (fun _ _ => rfl) (fun _ _ => rfl) (fun _ _ => rfl) : RewriteStep _ (MetadataResponsePartition3.first 0) (MetadataResponsePartition3.first 1) _ _)
    |>.andThen (.field (get := fun (t : MetadataResponsePartition3) => t.PartitionIndex) (set := fun (t : MetadataResponsePartition3) x => { t with PartitionIndex := x }) .int32 (fun _ => rfl) (fun _ => rfl) (fun _ _ => rfl) (fun _ _ => rfl) (fun _ _ => rfl) : RewriteStep _ (MetadataResponsePartition3.first 1) (MetadataResponsePartition3.first 2) _ _)
    |>.andThen (.field (get := fun (t : MetadataResponsePartition3) => t.LeaderId) (set := fun (t : MetadataResponsePartition3) x => { t with LeaderId := x }) .int32 (fun _ => rfl) (fun _ => rfl) (fun _ _ => rfl) (fun _ _ => rfl) (fun _ _ => rfl) : RewriteStep _ (MetadataResponsePartition3.first 2) (MetadataResponsePartition3.first 3) _ _)
    |>.andThen (.onlyIf (g := version ≥ 7) (.field (get := fun (t : MetadataResponsePartition3) => t.LeaderEpoch) (set := fun (t : MetadataResponsePartition3) x => { t with LeaderEpoch := x }) .int32 (fun _ => rfl) (fun _ => rfl) (fun _ _ => rfl) (fun _ _ => rfl) (fun _ _ => rfl)) (fun _ => rfl) : RewriteStep _ (MetadataResponsePartition3.first 3) (MetadataResponsePartition3.first 4) _ _)
    |>.andThen (.field (get := fun (t : MetadataResponsePartition3) => t.ReplicaNodes) (set := fun (t : MetadataResponsePartition3) x => { t with ReplicaNodes := x }) .int32Array (fun _ => rfl) (fun _ => rfl) (fun _ _ => rfl) (fun _ _ => rfl) (fun _ _ => rfl) : RewriteStep _ (MetadataResponsePartition3.first 4) (MetadataResponsePartition3.first 5) _ _)
    |>.andThen (.field (get := fun (t : MetadataResponsePartition3) => t.IsrNodes) (set := fun (t : MetadataResponsePartition3) x => { t with IsrNodes := x }) .int32Array (fun _ => rfl) (fun _ => rfl) (fun _ _ => rfl) (fun _ _ => rfl) (fun _ _ => rfl) : RewriteStep _ (MetadataResponsePartition3.first 5) (MetadataResponsePartition3.first 6) _ _)
    |>.andThen (.onlyIf (g := version ≥ 5) (.field (get := fun (t : MetadataResponsePartition3) => t.OfflineReplicas) (set := fun (t : MetadataResponsePartition3) x => { t with OfflineReplicas := x }) .int32Array (fun _ => rfl) (fun _ => rfl) (fun _ _ => rfl) (fun _ _ => rfl) (fun _ _ => rfl)) (fun _ => rfl) : RewriteStep _ (MetadataResponsePartition3.first 6) (MetadataResponsePartition3.first 7) _ _)).whole {} rfl (fun _ => rfl) (fun _ h => ⟨h.1.1.2, h.1.2, h.2⟩)

theorem MetadataResponseTopic3.rewrites (version : Int16) : Rewrites (MetadataResponseTopic3.decode version {}) (MetadataResponseTopic3.wire version) (MetadataResponseTopic3.Fits version) :=
  ((.field (get := fun (t : MetadataResponseTopic3) => t.ErrorCode) (set := fun (t : MetadataResponseTopic3) x => { t with ErrorCode := x }) .int16 (fun _ => rfl) (fun _ => rfl) (fun _ _ => rfl) (fun _ _ => rfl) (fun _ _ => rfl) : RewriteStep _ (MetadataResponseTopic3.first 0) (MetadataResponseTopic3.first 1) _ _)
    |>.andThen (.field (get := fun (t : MetadataResponseTopic3) => t.Name) (set := fun (t : MetadataResponseTopic3) x => { t with Name := x }) .string (fun _ => rfl) (fun _ => rfl) (fun _ _ => rfl) (fun _ _ => rfl) (fun _ _ => rfl) : RewriteStep _ (MetadataResponseTopic3.first 1) (MetadataResponseTopic3.first 2) _ _)
    |>.andThen (.onlyIf (g := version ≥ 1) (.field (get := fun (t : MetadataResponseTopic3) => t.IsInternal) (set := fun (t : MetadataResponseTopic3) x => { t with IsInternal := x }) .bool (fun _ => rfl) (fun _ => rfl) (fun _ _ => rfl) (fun _ _ => rfl) (fun _ _ => rfl)) (fun _ => rfl) : RewriteStep _ (MetadataResponseTopic3.first 2) (MetadataResponseTopic3.first 3) _ _)
    |>.andThen (.structs (get := fun (t : MetadataResponseTopic3) => t.Partitions) (set := fun (t : MetadataResponseTopic3) x => { t with Partitions := x }) (MetadataResponsePartition3.rewrites version) (fun _ => rfl) (fun _ => rfl) (fun _ => rfl) (fun _ _ => rfl) (fun _ _ => rfl) (fun _ _ => rfl) : RewriteStep _ (MetadataResponseTopic3.first 3) (MetadataResponseTopic3.first 4) _ _)
    |>.andThen (.onlyIf (g := version ≥ 8) (.field (get := fun (t : MetadataResponseTopic3) => t.TopicAuthorizedOperations) (set := fun (t : MetadataResponseTopic3) x => { t with TopicAuthorizedOperations := x }) .int32 (fun _ => rfl) (fun _ => rfl) (fun _ _ => rfl) (fun _ _ => rfl) (fun _ _ => rfl)) (fun _ => rfl) : RewriteStep _ (MetadataResponseTopic3.first 4) (MetadataResponseTopic3.first 5) _ _)).whole {} rfl (fun _ => rfl) (fun _ h => ⟨h.1.1.1.2, h.1.2⟩)

theorem MetadataResponse.rewrites (version : Int16) : Rewrites (MetadataResponse.decode version {}) (MetadataResponse.wire version) (MetadataResponse.Fits version) :=
  ((.onlyIf (g := version ≥ 3) (.field (get := fun (t : MetadataResponse) => t.ThrottleTimeMs) (set := fun (t : MetadataResponse) x => { t with ThrottleTimeMs := x }) .int32 (fun _ => rfl) (fun _ => rfl) (fun _ _ => rfl) (fun _ _ => rfl) (fun _ _ => rfl)) (fun _ => rfl) : RewriteStep _ (MetadataResponse.first 0) (MetadataResponse.first 1) _ _)
    |>.andThen (.structs (get := fun (t : MetadataResponse) => t.Brokers) (set := fun (t : MetadataResponse) x => { t with Brokers := x }) (MetadataResponseBroker3.rewrites version) (fun _ => rfl) (fun _ => rfl) (fun _ => rfl) (fun _ _ => rfl) (fun _ _ => rfl) (fun _ _ => rfl) : RewriteStep _ (MetadataResponse.first 1) (MetadataResponse.first 2) _ _)
    |>.andThen (.onlyIf (g := version ≥ 2) (.field (get := fun (t : MetadataResponse) => t.ClusterId) (set := fun (t : MetadataResponse) x => { t with ClusterId := x }) .string (fun _ => rfl) (fun _ => rfl) (fun _ _ => rfl) (fun _ _ => rfl) (fun _ _ => rfl)) (fun _ => rfl) : RewriteStep _ (MetadataResponse.first 2) (MetadataResponse.first 3) _ _)
    |>.andThen (.onlyIf (g := version ≥ 1) (.field (get := fun (t : MetadataResponse) => t.ControllerId) (set := fun (t : MetadataResponse) x => { t with ControllerId := x }) .int32 (fun _ => rfl) (fun _ => rfl) (fun _ _ => rfl) (fun _ _ => rfl) (fun _ _ => rfl)) (fun _ => rfl) : RewriteStep _ (MetadataResponse.first 3) (MetadataResponse.first 4) _ _)
    |>.andThen (.structs (get := fun (t : MetadataResponse) => t.Topics) (set := fun (t : MetadataResponse) x => { t with Topics := x }) (MetadataResponseTopic3.rewrites version) (fun _ => rfl) (fun _ => rfl) (fun _ => rfl) (fun _ _ => rfl) (fun _ _ => rfl) (fun _ _ => rfl) : RewriteStep _ (MetadataResponse.first 4) (MetadataResponse.first 5) _ _)
    |>.andThen (.onlyIf (g := version ≥ 8) (.field (get := fun (t : MetadataResponse) => t.ClusterAuthorizedOperations) (set := fun (t : MetadataResponse) x => { t with ClusterAuthorizedOperations := x }) .int32 (fun _ => rfl) (fun _ => rfl) (fun _ _ => rfl) (fun _ _ => rfl) (fun _ _ => rfl)) (fun _ => rfl) : RewriteStep _ (MetadataResponse.first 5) (MetadataResponse.first 6) _ _)).whole {} rfl (fun _ => rfl) (fun _ h => ⟨h.1.1.1.1.2, h.1.1.1.2, h.1.2⟩)

theorem rewritesMetadata : ∀ p ∈ typesMetadata, ∀ v, Rewrites (p.1.decode v p.1.zero) (p.2.wire v) (p.2.Fits v) := by
  unfold typesMetadata
  simp only [List.forall_mem_cons]
  exact ⟨MetadataRequest.rewrites, MetadataRequestTopic3.rewrites, MetadataResponse.rewrites, MetadataResponseBroker3.rewrites, MetadataResponseTopic3.rewrites, MetadataResponsePartition3.rewrites, fun _ h => absurd h (by simp)⟩

end Kafka.Msg
