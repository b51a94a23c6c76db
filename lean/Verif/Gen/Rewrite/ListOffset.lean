import Verif.Message.Rewrites
import Verif.Gen.Kept.ListOffset
import Verif.Gen.All
/-!
Generated by tools/gen_messages.py: encoding ListOffset messages that were decoded.
-/
namespace Kafka.Msg

theorem ListOffsetPartition2.rewrites (version : Int16) : Rewrites (ListOffsetPartition2.decode version {}) (ListOffsetPartition2.wire version) (ListOffsetPartition2.Fits version) :=
  ((.field (get := fun (t : ListOffsetPartition2) => t.PartitionIndex) (set := fun (t : ListOffsetPartition2) x => { t with PartitionIndex := x }) .int32 (fun _ => rfl) (fun _ => rfl) (fun _ _ => rfl) (fun _ _ => rfl) (fun _ _ => rfl) : RewriteStep _ (ListOffsetPartition2.first 0) (ListOffsetPartition2.first 1) _ _)
    |>.andThen (.onlyIf (g := version ≥ 4) (.field (get := fun (t : ListOffsetPartition2) => t.CurrentLeaderEpoch) (set := fun (t : ListOffsetPartition2) x => { t with CurrentLeaderEpoch := x }) .int32 (fun _ => rfl) (fun _ => rfl) (fun _ _ => rfl) (fun _ _ => rfl) (fun _ _ => rfl)) (fun _ => rfl) : RewriteStep _ (ListOffsetPartition2.first 1) (ListOffsetPartition2.first 2) _ _)
    |>.andThen (.field (get := fun (t : ListOffsetPartition2) => t.Timestamp) (set := fun (t : ListOffsetPartition2) x => { t with Timestamp := x }) .int64 (fun _ => rfl) (fun _ => rfl) (fun _ _ => rfl) (fun _ _ => rfl) (fun _ _ => rfl) : RewriteStep _ (ListOffsetPartition2.first 2) (ListOffsetPartition2.first 3) _ _)
    |>.andThen (.onlyIf (g := version ≥ 0 ∧ version ≤ 0) (.field (get := fun (t : ListOffsetPartition2) => t.MaxNumOffsets) (set := fun (t : ListOffsetPartition2) x => { t with MaxNumOffsets := x }) .int32 (fun _ => rfl) (fun _ => rfl) (fun _ _ => rfl) (fun _ _ => rfl) (fun _ _ => rfl)) (fun _ => rfl) : RewriteStep _ (ListOffsetPartition2.first 3) (ListOffsetPartition2.first 4) _ _)).whole {} rfl (fun _ => rfl) (fun _ _ => trivial)

theorem ListOffsetTopic2.rewrites (version : Int16) : Rewrites (ListOffsetTopic2.decode version {}) (ListOffsetTopic2.wire version) (ListOffsetTopic2.Fits version) :=
  ((.field (get := fun (t : ListOffsetTopic2) => t.Name) (set := fun (t : ListOffsetTopic2) x => { t with Name := x }) .string (fun _ => rfl) (fun _ => rfl) (fun _ _ => rfl) (fun _ _ => rfl) (fun _ _ => rfl) : RewriteStep _ (ListOffsetTopic2.first 0) (ListOffsetTopic2.first 1) _ _)
    |>.andThen (.structs (get := fun (t : ListOffsetTopic2) => t.Partitions) (set := fun (t : ListOffsetTopic2) x => { t with Partitions := x }) (ListOffsetPartition2.rewrites version) (fun _ => rfl) (fun _ => rfl) (fun _ => rfl) (fun _ _ => rfl) (fun _ _ => rfl) (fun _ _ => rfl) : RewriteStep _ (ListOffsetTopic2.first 1) (ListOffsetTopic2.first 2) _ _)).whole {} rfl (fun _ => rfl) (fun _ h => ⟨h.1, h.2⟩)

theorem ListOffsetRequest.rewrites (version : Int16) : Rewrites (ListOffsetRequest.decode version {}) (ListOffsetRequest.wire version) (ListOffsetRequest.Fits version) :=
  ((.field (get := fun (t : ListOffsetRequest) => t.ReplicaId) (set := fun (t : ListOffsetRequest) x => { t with ReplicaId := x }) .int32 (fun _ => rfl) (fun _ => rfl) (fun _ _ => rfl) (fun _ _ => rfl) (fun _ _ => rfl) : RewriteStep _ (ListOffsetRequest.first 0) (ListOffsetRequest.first 1) _ _)
    |>.andThen (.onlyIf (g := version ≥ 2) (.field (get := fun (t : ListOffsetRequest) => t.IsolationLevel) (set := fun (t : ListOffsetRequest) x => { t with IsolationLevel := x }) .int8 (fun _ => rfl) (fun _ => rfl) (fun _ _ => rfl) (fun _ _ => rfl) (fun _ _ => rfl)) (fun _ => rfl) : RewriteStep _ (ListOffsetRequest.first 1) (ListOffsetRequest.first 2) _ _)
    |>.andThen (.structs (get := fun (t : ListOffsetRequest) => t.Topics) (set := fun (t : ListOffsetRequest) x => { t with Topics := x }) (ListOffsetTopic2.rewrites version) (fun _ => rfl) (fun _ => rfl) (fun _ => rfl) (fun _ _ => rfl) (fun _ _ => rfl) (fun _ _ => rfl) : RewriteStep _ (ListOffsetRequest.first 2) (ListOffsetRequest.first 3) _ _)).whole {} rfl (fun _ => rfl) (fun _ h => ⟨h.2⟩)

theorem ListOffsetPartitionResponse2.rewrites (version : Int16) : Rewrites (ListOffsetPartitionResponse2.decode version {}) (ListOffsetPartitionResponse2.wire version) (ListOffsetPartitionResponse2.Fits version) :=
  ((.field (get := fun (t : ListOffsetPartitionResponse2) => t.PartitionIndex) (set := fun (t : ListOffsetPartitionResponse2) x => { t with PartitionIndex := x }) .int32 (fun _ => rfl) (fun _ => rfl) (fun _ _ => rfl) (fun _ _ => rfl) (fun _ _ => rfl) : RewriteStep _ (ListOffsetPartitionResponse2.first 0) (ListOffsetPartitionResponse2.first 1) _ _)
    |>.andThen (.field (get := fun (t : ListOffsetPartitionResponse2) => t.ErrorCode) (set := fun (t : ListOffsetPartitionResponse2) x => { t with ErrorCode := x }) .int16 (fun _ => rfl) (fun _ => rfl) (fun _ _ => rfl) (fun _ _ => rfl) (fun _ _ => rfl) : RewriteStep _ (ListOffsetPartitionResponse2.first 1) (ListOffsetPartitionResponse2.first 2) _ _)
    |>.andThen (.onlyIf (g := version ≥ 0 ∧ version ≤ 0) (.field (get := fun (t : ListOffsetPartitionResponse2) => t.OldStyleOffsets) (set := fun (t : ListOffsetPartitionResponse2) x => { t with OldStyleOffsets := x }) .int64Array (fun _ => rfl) (fun _ => rfl) (fun _ _ => rfl) (fun _ _ => rfl) (fun _ _ => rfl)) (fun _ => rfl) : RewriteStep _ (ListOffsetPartitionResponse2.first 2) (ListOffsetPartitionResponse2.first 3) _ _)
    |>.andThen (.onlyIf (g := version ≥ 1) (.field (get := fun (t : ListOffsetPartitionResponse2) => t.Timestamp) (set := fun (t : ListOffsetPartitionResponse2) x => { t with Timestamp := x }) .int64 (fun _ => rfl) (fun _ => rfl) (fun _ _ => rfl) (fun _ _ => rfl) (fun _ _ => rfl)) (fun _ => rfl) : RewriteStep _ (ListOffsetPartitionResponse2.first 3) (ListOffsetPartitionResponse2.first 4) _ _)
    |>.andThen (.onlyIf (g := version ≥ 1) (.field (get := fun (t : ListOffsetPartitionResponse2) => t.Offset) (set := fun (t : ListOffsetPartitionResponse2) x => { t with Offset := x }) .int64 (fun _ => rfl) (fun _ => rfl) (fun _ _ => rfl) (fun _ _ => rfl) (fun _ _ => rfl)) (fun _ => rfl) : RewriteStep _ (ListOffsetPartitionResponse2.first 4) (ListOffsetPartitionResponse2.first 5) _ _)
    |>.andThen (.onlyIf (g := version ≥ 4) (.field (get := fun (t : ListOffsetPartitionResponse2) => t.LeaderEpoch) (set := fun (t : ListOffsetPartitionResponse2) x => { t with LeaderEpoch := x }) .int32 (fun _ => rfl) (fun _ => rfl) (fun _ _ => rfl) (fun _ _ => rfl) (fun _ _ => rfl)) (fun _ => rfl) : RewriteStep _ (ListOffsetPartitionResponse2.first 5) (ListOffsetPartitionResponse2.first 6) _ _)).whole {} rfl (fun _ => rfl) (fun _ h => ⟨h.1.1.1.2⟩)

theorem ListOffsetTopicResponse2.rewrites (version : Int16) : Rewrites (ListOffsetTopicResponse2.decode version {}) (ListOffsetTopicResponse2.wire version) (ListOffsetTopicResponse2.Fits version) :=
  ((.field (get := fun (t : ListOffsetTopicResponse2) => t.Name) (set := fun (t : ListOffsetTopicResponse2) x => { t with Name := x }) .string (fun _ => rfl) (fun _ => rfl) (fun _ _ => rfl) (fun _ _ => rfl) (fun _ _ => rfl) : RewriteStep _ (ListOffsetTopicResponse2.first 0) (ListOffsetTopicResponse2.first 1) _ _)
    |>.andThen (.structs (get := fun (t : ListOffsetTopicResponse2) => t.Partitions) (set := fun (t : ListOffsetTopicResponse2) x => { t with Partitions := x }) (ListOffsetPartitionResponse2.rewrites version) (fun _ => rfl) (fun _ => rfl) (fun _ => rfl) (fun _ _ => rfl) (fun _ _ => rfl) (fun _ _ => rfl) : RewriteStep _ (ListOffsetTopicResponse2.first 1) (ListOffsetTopicResponse2.first 2) _ _)).whole {} rfl (fun _ => rfl) (fun _ h => ⟨h.1, h.2⟩)

theorem ListOffsetResponse.rewrites (version : Int16) : Rewrites (ListOffsetResponse.decode version {}) (ListOffsetResponse.wire version) (ListOffsetResponse.Fits version) :=
  ((.onlyIf (g := version ≥ 2) (.field (get := fun (t : ListOffsetResponse) => t.ThrottleTimeMs) (set := fun (t : ListOffsetResponse) x => { t with ThrottleTimeMs := x }) .int32 (fun _ => rfl) (fun _ => rfl) (fun _ _ => rfl) (fun _ _ => rfl) (fun _ _ => rfl)) (fun _ => rfl) : RewriteStep _ (ListOffsetResponse.first 0) (ListOffsetResponse.first 1) _ _)
    |>.andThen (.structs (get := fun (t : ListOffsetResponse) => t.Topics) (set := fun (t : ListOffsetResponse) x => { t with Topics := x }) (ListOffsetTopicResponse2.rewrites version) (fun _ => rfl) (fun _ => rfl) (fun _ => rfl) (fun _ _ => rfl) (fun _ _ => rfl) (fun _ _ => rfl) : RewriteStep _ (ListOffsetResponse.first 1) (ListOffsetResponse.first 2) _ _)).whole {} rfl (fun _ => rfl) (fun _ h => ⟨h.2⟩)

theorem rewritesListOffset : ∀ p ∈ typesListOffset, ∀ v, Rewrites (p.1.decode v p.1.zero) (p.2.wire v) (p.2.Fits v) := by
  unfold typesListOffset
  simp only [List.forall_mem_cons]
  exact ⟨ListOffsetRequest.rewrites, ListOffsetTopic2.rewrites, ListOffsetPartition2.rewrites, ListOffsetResponse.rewrites, ListOffsetTopicResponse2.rewrites, ListOffsetPartitionResponse2.rewrites, fun _ h => absurd h (by simp)⟩

end Kafka.Msg
