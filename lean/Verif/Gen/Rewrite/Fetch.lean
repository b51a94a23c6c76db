import Verif.Message.Rewrites
import Verif.Gen.Kept.Fetch
import Verif.Gen.All
/-!
Generated by tools/gen_messages.py: encoding Fetch messages that were decoded.
-/
namespace Kafka.Msg

theorem FetchPartition1.rewrites (version : Int16) : Rewrites (FetchPartition1.decode version {}) (FetchPartition1.wire version) (FetchPartition1.Fits version) :=
  ((.field (get := fun (t : FetchPartition1) => t.PartitionIndex) (set := fun (t : FetchPartition1) x => { t with PartitionIndex := x }) .int32 (fun _ => rfl) (fun _ => rfl) (fun _ _ => rfl) (fun _ _ => rfl) (fun _ _ => rfl) : RewriteStep _ (FetchPartition1.first 0) (FetchPartition1.first 1) _ _)
    |>.andThen (.onlyIf (g := version ≥ 9) (.field (get := fun (t : FetchPartition1) => t.CurrentLeaderEpoch) (set := fun (t : FetchPartition1) x => { t with CurrentLeaderEpoch := x }) .int32 (fun _ => rfl) (fun _ => rfl) (fun _ _ => rfl) (fun _ _ => rfl) (fun _ _ => rfl)) (fun _ => rfl) : RewriteStep _ (FetchPartition1.first 1) (FetchPartition1.first 2) _ _)
    |>.andThen (.field (get := fun (t : FetchPartition1) => t.FetchOffset) (set := fun (t : FetchPartition1) x => { t with FetchOffset := x }) .int64 (fun _ => rfl) (fun _ => rfl) (fun _ _ => rfl) (fun _ _ => rfl) (fun _ _ => rfl) : RewriteStep _ (FetchPartition1.first 2) (FetchPartition1.first 3) _ _)
    |>.andThen (.onlyIf (g := version ≥ 5) (.field (get := fun (t : FetchPartition1) => t.LogStartOffset) (set := fun (t : FetchPartition1) x => { t with LogStartOffset := x }) .int64 (fun _ => rfl) (fun _ => rfl) (fun _ _ => rfl) (fun _ _ => rfl) (fun _ _ => rfl)) (fun _ => rfl) : RewriteStep _ (FetchPartition1.first 3) (FetchPartition1.first 4) _ _)
    |>.andThen (.field (get := fun (t : FetchPartition1) => t.MaxBytes) (set := fun (t : FetchPartition1) x => { t with MaxBytes := x }) .int32 (fun _ => rfl) (fun _ => rfl) (fun _ _ => rfl) (fun _ _ => rfl) (fun _ _ => rfl) : RewriteStep _ (FetchPartition1.first 4) (FetchPartition1.first 5) _ _)).whole {} rfl (fun _ => rfl) (fun _ _ => trivial)

theorem FetchableTopic1.rewrites (version : Int16) : Rewrites (FetchableTopic1.decode version {}) (FetchableTopic1.wire version) (FetchableTopic1.Fits version) :=
  ((.field (get := fun (t : FetchableTopic1) => t.Name) (set := fun (t : FetchableTopic1) x => { t with Name := x }) .string (fun _ => rfl) (fun _ => rfl) (fun _ _ => rfl) (fun _ _ => rfl) (fun _ _ => rfl) : RewriteStep _ (FetchableTopic1.first 0) (FetchableTopic1.first 1) _ _)
    |>.andThen (.structs (get := fun (t : FetchableTopic1) => t.FetchPartitions) (set := fun (t : FetchableTopic1) x => { t with FetchPartitions := x }) (FetchPartition1.rewrites version) (fun _ => rfl) (fun _ => rfl) (fun _ => rfl) (fun _ _ => rfl) (fun _ _ => rfl) (fun _ _ => rfl) : RewriteStep _ (FetchableTopic1.first 1) (FetchableTopic1.first 2) _ _)).whole {} rfl (fun _ => rfl) (fun _ h => ⟨h.1, h.2⟩)

theorem ForgottenTopic1.rewrites (version : Int16) : Rewrites (ForgottenTopic1.decode version {}) (ForgottenTopic1.wire version) (ForgottenTopic1.Fits version) :=
  ((.onlyIf (g := version ≥ 7) (.field (get := fun (t : ForgottenTopic1) => t.Name) (set := fun (t : ForgottenTopic1) x => { t with Name := x }) .string (fun _ => rfl) (fun _ => rfl) (fun _ _ => rfl) (fun _ _ => rfl) (fun _ _ => rfl)) (fun _ => rfl) : RewriteStep _ (ForgottenTopic1.first 0) (ForgottenTopic1.first 1) _ _)
    |>.andThen (.onlyIf (g := version ≥ 7) (.field (get := fun (t : ForgottenTopic1) => t.ForgottenPartitionIndexes) (set := fun (t : ForgottenTopic1) x => { t with ForgottenPartitionIndexes := x }) .int32Array (fun _ => rfl) (fun _ => rfl) (fun _ _ => rfl) (fun _ _ => rfl) (fun _ _ => rfl)) (fun _ => rfl) : RewriteStep _ (ForgottenTopic1.first 1) (ForgottenTopic1.first 2) _ _)).whole {} rfl (fun _ => rfl) (fun _ h => ⟨h.1, h.2⟩)

theorem FetchRequest.rewrites (version : Int16) : Rewrites (FetchRequest.decode version {}) (FetchRequest.wire version) (FetchRequest.Fits version) :=
  ((.field (get := fun (t : FetchRequest) => t.ReplicaId) (set := fun (t : FetchRequest) x => { t with ReplicaId := x }) .int32 (fun _ => rfl) (fun _ => rfl) (fun _ _ => rfl) (fun _ _ => rfl) (fun _ _ => rfl) : RewriteStep _ (FetchRequest.first 0) (FetchRequest.first 1) _ _)
    |>.andThen (.field (get := fun (t : FetchRequest) => t.MaxWait) (set := fun (t : FetchRequest) x => { t with MaxWait := x }) .int32 (fun _ => rfl) (fun _ => rfl) (fun _ _ => rfl) (fun _ _ => rfl) (fun _ _ => rfl) : RewriteStep _ (FetchRequest.first 1) (FetchRequest.first 2) _ _)
    |>.andThen (.field (get := fun (t : FetchRequest) => t.MinBytes) (set := fun (t : FetchRequest) x => { t with MinBytes := x }) .int32 (fun _ => rfl) (fun _ => rfl) (fun _ _ => rfl) (fun _ _ => rfl) (fun _ _ => rfl) : RewriteStep _ (FetchRequest.first 2) (FetchRequest.first 3) _ _)
    |>.andThen (.onlyIf (g := version ≥ 3) (.field (get := fun (t : FetchRequest) => t.MaxBytes) (set := fun (t : FetchRequest) x => { t with MaxBytes := x }) .int32 (fun _ => rfl) (fun _ => rfl) (fun _ _ => rfl) (fun _ _ => rfl) (fun _ _ => rfl)) (fun _ => rfl) : RewriteStep _ (FetchRequest.first 3) (FetchRequest.first 4) _ _)
    |>.andThen (.onlyIf (g := version ≥ 4) (.field (get := fun (t : FetchRequest) => t.IsolationLevel) (set := fun (t : FetchRequest) x => { t with IsolationLevel := x }) .int8 (fun _ => rfl) (fun _ => rfl) (fun _ _ => rfl) (fun _ _ => rfl) (fun _ _ => rfl)) (fun _ => rfl) : RewriteStep _ (FetchRequest.first 4) (FetchRequest.first 5) _ _)
    |>.andThen (.onlyIf (g := version ≥ 7) (.field (get := fun (t : FetchRequest) => t.SessionId) (set := fun (t : FetchRequest) x => { t with SessionId := x }) .int32 (fun _ => rfl) (fun _ => rfl) (fun _ _ => rfl) (fun _ _ => rfl) (fun _ _ => rfl)) (fun _ => rfl) : RewriteStep _ (FetchRequest.first 5) (FetchRequest.first 6) _ _)
    |>.andThen (.onlyIf (g := version ≥ 7) (.field (get := fun (t : FetchRequest) => t.Epoch) (set := fun (t : FetchRequest) x => { t with Epoch := x }) .int32 (fun _ => rfl) (fun _ => rfl) (fun _ _ => rfl) (fun _ _ => rfl) (fun _ _ => rfl)) (fun _ => rfl) : RewriteStep _ (FetchRequest.first 6) (FetchRequest.first 7) _ _)
    |>.andThen (.structs (get := fun (t : FetchRequest) => t.Topics) (set := fun (t : FetchRequest) x => { t with Topics := x }) (FetchableTopic1.rewrites version) (fun _ => rfl) (fun _ => rfl) (fun _ => rfl) (fun _ _ => rfl) (fun _ _ => rfl) (fun _ _ => rfl) : RewriteStep _ (FetchRequest.first 7) (FetchRequest.first 8) _ _)
    |>.andThen (.onlyIf (g := version ≥ 7) (.structs (get := fun (t : FetchRequest) => t.Forgotten) (set := fun (t : FetchRequest) x => { t with Forgotten := x }) (ForgottenTopic1.rewrites version) (fun _ => rfl) (fun _ => rfl) (fun _ => rfl) (fun _ _ => rfl) (fun _ _ => rfl) (fun _ _ => rfl)) (fun _ => rfl) : RewriteStep _ (FetchRequest.first 8) (FetchRequest.first 9) _ _)
    |>.andThen (.onlyIf (g := version ≥ 11) (.field (get := fun (t : FetchRequest) => t.RackId) (set := fun (t : FetchRequest) x => { t with RackId := x }) .string (fun _ => rfl) (fun _ => rfl) (fun _ _ => rfl) (fun _ _ => rfl) (fun _ _ => rfl)) (fun _ => rfl) : RewriteStep _ (FetchRequest.first 9) (FetchRequest.first 10) _ _)).whole {} rfl (fun _ => rfl) (fun _ h => ⟨h.1.1.2, h.1.2, h.2⟩)

theorem AbortedTransaction1.rewrites (version : Int16) : Rewrites (AbortedTransaction1.decode version {}) (AbortedTransaction1.wire version) (AbortedTransaction1.Fits version) :=
  ((.onlyIf (g := version ≥ 4) (.field (get := fun (t : AbortedTransaction1) => t.ProducerId) (set := fun (t : AbortedTransaction1) x => { t with ProducerId := x }) .int64 (fun _ => rfl) (fun _ => rfl) (fun _ _ => rfl) (fun _ _ => rfl) (fun _ _ => rfl)) (fun _ => rfl) : RewriteStep _ (AbortedTransaction1.first 0) (AbortedTransaction1.first 1) _ _)
    |>.andThen (.onlyIf (g := version ≥ 4) (.field (get := fun (t : AbortedTransaction1) => t.FirstOffset) (set := fun (t : AbortedTransaction1) x => { t with FirstOffset := x }) .int64 (fun _ => rfl) (fun _ => rfl) (fun _ _ => rfl) (fun _ _ => rfl) (fun _ _ => rfl)) (fun _ => rfl) : RewriteStep _ (AbortedTransaction1.first 1) (AbortedTransaction1.first 2) _ _)).whole {} rfl (fun _ => rfl) (fun _ _ => trivial)

theorem FetchablePartitionResponse1.rewrites (version : Int16) : Rewrites (FetchablePartitionResponse1.decode version {}) (FetchablePartitionResponse1.wire version) (FetchablePartitionResponse1.Fits version) :=
  ((.field (get := fun (t : FetchablePartitionResponse1) => t.PartitionIndex) (set := fun (t : FetchablePartitionResponse1) x => { t with PartitionIndex := x }) .int32 (fun _ => rfl) (fun _ => rfl) (fun _ _ => rfl) (fun _ _ => rfl) (fun _ _ => rfl) : RewriteStep _ (FetchablePartitionResponse1.first 0) (FetchablePartitionResponse1.first 1) _ _)
    |>.andThen (.field (get := fun (t : FetchablePartitionResponse1) => t.ErrorCode) (set := fun (t : FetchablePartitionResponse1) x => { t with ErrorCode := x }) .int16 (fun _ => rfl) (fun _ => rfl) (fun _ _ => rfl) (fun _ _ => rfl) (fun _ _ => rfl) : RewriteStep _ (FetchablePartitionResponse1.first 1) (FetchablePartitionResponse1.first 2) _ _)
    |>.andThen (.field (get := fun (t : FetchablePartitionResponse1) => t.HighWatermark) (set := fun (t : FetchablePartitionResponse1) x => { t with HighWatermark := x }) .int64 (fun _ => rfl) (fun _ => rfl) (fun _ _ => rfl) (fun _ _ => rfl) (fun _ _ => rfl) : RewriteStep _ (FetchablePartitionResponse1.first 2) (FetchablePartitionResponse1.first 3) _ _)
    |>.andThen (.onlyIf (g := version ≥ 4) (.field (get := fun (t : FetchablePartitionResponse1) => t.LastStableOffset) (set := fun (t : FetchablePartitionResponse1) x => { t with LastStableOffset := x }) .int64 (fun _ => rfl) (fun _ => rfl) (fun _ _ => rfl) (fun _ _ => rfl) (fun _ _ => rfl)) (fun _ => rfl) : RewriteStep _ (FetchablePartitionResponse1.first 3) (FetchablePartitionResponse1.first 4) _ _)
    |>.andThen (.onlyIf (g := version ≥ 5) (.field (get := fun (t : FetchablePartitionResponse1) => t.LogStartOffset) (set := fun (t : FetchablePartitionResponse1) x => { t with LogStartOffset := x }) .int64 (fun _ => rfl) (fun _ => rfl) (fun _ _ => rfl) (fun _ _ => rfl) (fun _ _ => rfl)) (fun _ => rfl) : RewriteStep _ (FetchablePartitionResponse1.first 4) (FetchablePartitionResponse1.first 5) _ _)
    |>.andThen (.onlyIf (g := version ≥ 4) (.structs (get := fun (t : FetchablePartitionResponse1) => t.Aborted) (set := fun (t : FetchablePartitionResponse1) x => { t with Aborted := x }) (AbortedTransaction1.rewrites version) (fun _ => rfl) (fun _ => rfl) (fun _ => rfl) (fun _ _ => rfl) (fun _ _ => rfl) (fun _ _ => rfl)) (fun _ => rfl) : RewriteStep _ (FetchablePartitionResponse1.first 5) (FetchablePartitionResponse1.first 6) _ _)
    |>.andThen (.onlyIf (g := version ≥ 11) (.field (get := fun (t : FetchablePartitionResponse1) => t.PreferredReadReplica) (set := fun (t : FetchablePartitionResponse1) x => { t with PreferredReadReplica := x }) .int32 (fun _ => rfl) (fun _ => rfl) (fun _ _ => rfl) (fun _ _ => rfl) (fun _ _ => rfl)) (fun _ => rfl) : RewriteStep _ (FetchablePartitionResponse1.first 6) (FetchablePartitionResponse1.first 7) _ _)
    |>.andThen (.field (get := fun (t : FetchablePartitionResponse1) => t.Records) (set := fun (t : FetchablePartitionResponse1) x => { t with Records := x }) .bytes (fun _ => rfl) (fun _ => rfl) (fun _ _ => rfl) (fun _ _ => rfl) (fun _ _ => rfl) : RewriteStep _ (FetchablePartitionResponse1.first 7) (FetchablePartitionResponse1.first 8) _ _)).whole {} rfl (fun _ => rfl) (fun _ h => ⟨h.1.1.2, h.2⟩)

theorem FetchableTopicResponse1.rewrites (version : Int16) : Rewrites (FetchableTopicResponse1.decode version {}) (FetchableTopicResponse1.wire version) (FetchableTopicResponse1.Fits version) :=
  ((.field (get := fun (t : FetchableTopicResponse1) => t.Name) (set := fun (t : FetchableTopicResponse1) x => { t with Name := x }) .string (fun _ => rfl) (fun _ => rfl) (fun _ _ => rfl) (fun _ _ => rfl) (fun _ _ => rfl) : RewriteStep _ (FetchableTopicResponse1.first 0) (FetchableTopicResponse1.first 1) _ _)
    |>.andThen (.structs (get := fun (t : FetchableTopicResponse1) => t.Partitions) (set := fun (t : FetchableTopicResponse1) x => { t with Partitions := x }) (FetchablePartitionResponse1.rewrites version) (fun _ => rfl) (fun _ => rfl) (fun _ => rfl) (fun _ _ => rfl) (fun _ _ => rfl) (fun _ _ => rfl) : RewriteStep _ (FetchableTopicResponse1.first 1) (FetchableTopicResponse1.first 2) _ _)).whole {} rfl (fun _ => rfl) (fun _ h => ⟨h.1, h.2⟩)

theorem FetchResponse.rewrites (version : Int16) : Rewrites (FetchResponse.decode version {}) (FetchResponse.wire version) (FetchResponse.Fits version) :=
  ((.onlyIf (g := version ≥ 1) (.field (get := fun (t : FetchResponse) => t.ThrottleTimeMs) (set := fun (t : FetchResponse) x => { t with ThrottleTimeMs := x }) .int32 (fun _ => rfl) (fun _ => rfl) (fun _ _ => rfl) (fun _ _ => rfl) (fun _ _ => rfl)) (fun _ => rfl) : RewriteStep _ (FetchResponse.first 0) (FetchResponse.first 1) _ _)
    |>.andThen (.onlyIf (g := version ≥ 7) (.field (get := fun (t : FetchResponse) => t.ErrorCode) (set := fun (t : FetchResponse) x => { t with ErrorCode := x }) .int16 (fun _ => rfl) (fun _ => rfl) (fun _ _ => rfl) (fun _ _ => rfl) (fun _ _ => rfl)) (fun _ => rfl) : RewriteStep _ (FetchResponse.first 1) (FetchResponse.first 2) _ _)
    |>.andThen (.onlyIf (g := version ≥ 7) (.field (get := fun (t : FetchResponse) => t.SessionId) (set := fun (t : FetchResponse) x => { t with SessionId := x }) .int32 (fun _ => rfl) (fun _ => rfl) (fun _ _ => rfl) (fun _ _ => rfl) (fun _ _ => rfl)) (fun _ => rfl) : RewriteStep _ (FetchResponse.first 2) (FetchResponse.first 3) _ _)
    |>.andThen (.structs (get := fun (t : FetchResponse) => t.Topics) (set := fun (t : FetchResponse) x => { t with Topics := x }) (FetchableTopicResponse1.rewrites version) (fun _ => rfl) (fun _ => rfl) (fun _ => rfl) (fun _ _ => rfl) (fun _ _ => rfl) (fun _ _ => rfl) : RewriteStep _ (FetchResponse.first 3) (FetchResponse.first 4) _ _)).whole {} rfl (fun _ => rfl) (fun _ h => ⟨h.2⟩)

theorem rewritesFetch : ∀ p ∈ typesFetch, ∀ v, Rewrites (p.1.decode v p.1.zero) (p.2.wire v) (p.2.Fits v) := by
  unfold typesFetch
  simp only [List.forall_mem_cons]
  exact ⟨FetchRequest.rewrites, FetchableTopic1.rewrites, FetchPartition1.rewrites, ForgottenTopic1.rewrites, FetchResponse.rewrites, FetchableTopicResponse1.rewrites, FetchablePartitionResponse1.rewrites, AbortedTransaction1.rewrites, fun _ h => absurd h (by simp)⟩

end Kafka.Msg
