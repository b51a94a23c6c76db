import Verif.Message.Rewrites
import Verif.Gen.Kept.OffsetForLeaderEpoch
import Verif.Gen.All
/-!
Generated by tools/gen_messages.py: encoding OffsetForLeaderEpoch messages that were decoded.
-/
namespace Kafka.Msg

theorem OffsetForLeaderPartition23.rewrites (version : Int16) : Rewrites (OffsetForLeaderPartition23.decode version {}) (OffsetForLeaderPartition23.wire version) (OffsetForLeaderPartition23.Fits version) :=
  ((.field (get := fun (t : OffsetForLeaderPartition23) => t.PartitionIndex) (set := fun (t : OffsetForLeaderPartition23) x => { t with PartitionIndex := x }) .int32 (fun _ => rfl) (fun _ => rfl) (fun _ _ => rfl) (fun _ _ => rfl) (fun _ _ => rfl) : RewriteStep _ (OffsetForLeaderPartition23.first 0) (OffsetForLeaderPartition23.first 1) _ _)
    |>.andThen (.onlyIf (g := version ≥ 2) (.field (get := fun (t : OffsetForLeaderPartition23) => t.CurrentLeaderEpoch) (set := fun (t : OffsetForLeaderPartition23) x => { t with CurrentLeaderEpoch := x }) .int32 (fun _ => rfl) (fun _ => rfl) (fun _ _ => rfl) (fun _ _ => rfl) (fun _ _ => rfl)) (fun _ => rfl) : RewriteStep _ (OffsetForLeaderPartition23.first 1) (OffsetForLeaderPartition23.first 2) _ _)
    |>.andThen (.field (get := fun (t : OffsetForLeaderPartition23) => t.LeaderEpoch) (set := fun (t : OffsetForLeaderPartition23) x => { t with LeaderEpoch := x }) .int32 (fun _ => rfl) (fun _ => rfl) (fun _ _ => rfl) (fun _ _ => rfl) (fun _ _ => rfl) : RewriteStep _ (OffsetForLeaderPartition23.first 2) (OffsetForLeaderPartition23.first 3) _ _)).whole {} rfl (fun _ => rfl) (fun _ _ => trivial)

theorem OffsetForLeaderTopic23.rewrites (version : Int16) : Rewrites (OffsetForLeaderTopic23.decode version {}) (OffsetForLeaderTopic23.wire version) (OffsetForLeaderTopic23.Fits version) :=
  ((.field (get := fun (t : OffsetForLeaderTopic23) => t.Name) (set := fun (t : OffsetForLeaderTopic23) x => { t with Name := x }) .string (fun _ => rfl) (fun _ => rfl) (fun _ _ => rfl) (fun _ _ => rfl) (fun _ _ => rfl) : RewriteStep _ (OffsetForLeaderTopic23.first 0) (OffsetForLeaderTopic23.first 1) _ _)
    |>.andThen (.structs (get := fun (t : OffsetForLeaderTopic23) => t.Partitions) (set := fun (t : OffsetForLeaderTopic23) x => { t with Partitions := x }) (OffsetForLeaderPartition23.rewrites version) (fun _ => rfl) (fun _ => rfl) (fun _ => rfl) (fun _ _ => rfl) (fun _ _ => rfl) (fun _ _ => rfl) : RewriteStep _ (OffsetForLeaderTopic23.first 1) (OffsetForLeaderTopic23.first 2) _ _)).whole {} rfl (fun _ => rfl) (fun _ h => ⟨h.1, h.2⟩)

theorem OffsetForLeaderEpochRequest.rewrites (version : Int16) : Rewrites (OffsetForLeaderEpochRequest.decode version {}) (OffsetForLeaderEpochRequest.wire version) (OffsetForLeaderEpochRequest.Fits version) :=
  ((.onlyIf (g := version ≥ 3) (.field (get := fun (t : OffsetForLeaderEpochRequest) => t.ReplicaId) (set := fun (t : OffsetForLeaderEpochRequest) x => { t with ReplicaId := x }) .int32 (fun _ => rfl) (fun _ => rfl) (fun _ _ => rfl) (fun _ _ => rfl) (fun _ _ => rfl)) (fun _ => rfl) : RewriteStep _ (OffsetForLeaderEpochRequest.first 0) (OffsetForLeaderEpochRequest.first 1) _ _)
    |>.andThen (.structs (get := fun (t : OffsetForLeaderEpochRequest) => t.Topics) (set := fun (t : OffsetForLeaderEpochRequest) x => { t with Topics := x }) (OffsetForLeaderTopic23.rewrites version) (fun _ => rfl) (fun _ => rfl) (fun _ => rfl) (fun _ _ => rfl) (fun _ _ => rfl) (fun _ _ => rfl) : RewriteStep _ (OffsetForLeaderEpochRequest.first 1) (OffsetForLeaderEpochRequest.first 2) _ _)).whole {} rfl (fun _ => rfl) (fun _ h => ⟨h.2⟩)

theorem OffsetForLeaderPartitionResult23.rewrites (version : Int16) : Rewrites (OffsetForLeaderPartitionResult23.decode version {}) (OffsetForLeaderPartitionResult23.wire version) (OffsetForLeaderPartitionResult23.Fits version) :=
  ((.field (get := fun (t : OffsetForLeaderPartitionResult23) => t.ErrorCode) (set := fun (t : OffsetForLeaderPartitionResult23) x => { t with ErrorCode := x }) .int16 (fun _ => rfl) (fun _ => rfl) (fun _ _ => rfl) (fun _ _ => rfl) (fun _ _ => rfl) : RewriteStep _ (OffsetForLeaderPartitionResult23.first 0) (OffsetForLeaderPartitionResult23.first 1) _ _)
    |>.andThen (.field (get := fun (t : OffsetForLeaderPartitionResult23) => t.PartitionIndex) (set := fun (t : OffsetForLeaderPartitionResult23) x => { t with PartitionIndex := x }) .int32 (fun _ => rfl) (fun _ => rfl) (fun _ _ => rfl) (fun _ _ => rfl) (fun _ _ => rfl) : RewriteStep _ (OffsetForLeaderPartitionResult23.first 1) (OffsetForLeaderPartitionResult23.first 2) _ _)
    |>.andThen (.onlyIf (g := version ≥ 1) (.field (get := fun (t : OffsetForLeaderPartitionResult23) => t.LeaderEpoch) (set := fun (t : OffsetForLeaderPartitionResult23) x => { t with LeaderEpoch := x }) .int32 (fun _ => rfl) (fun _ => rfl) (fun _ _ => rfl) (fun _ _ => rfl) (fun _ _ => rfl)) (fun _ => rfl) : RewriteStep _ (OffsetForLeaderPartitionResult23.first 2) (OffsetForLeaderPartitionResult23.first 3) _ _)
    |>.andThen (.field (get := fun (t : OffsetForLeaderPartitionResult23) => t.EndOffset) (set := fun (t : OffsetForLeaderPartitionResult23) x => { t with EndOffset := x }) .int64 (fun _ => rfl) (fun _ => rfl) (fun _ _ => rfl) (fun _ _ => rfl) (fun _ _ => rfl) : RewriteStep _ (OffsetForLeaderPartitionResult23.first 3) (OffsetForLeaderPartitionResult23.first 4) _ _)).whole {} rfl (fun _ => rfl) (fun _ _ => trivial)

theorem OffsetForLeaderTopicResult23.rewrites (version : Int16) : Rewrites (OffsetForLeaderTopicResult23.decode version {}) (OffsetForLeaderTopicResult23.wire version) (OffsetForLeaderTopicResult23.Fits version) :=
  ((.field (get := fun (t : OffsetForLeaderTopicResult23) => t.Name) (set := fun (t : OffsetForLeaderTopicResult23) x => { t with Name := x }) .string (fun _ => rfl) (fun _ => rfl) (fun _ _ => rfl) (fun _ _ => rfl) (fun _ _ => rfl) : RewriteStep _ (OffsetForLeaderTopicResult23.first 0) (OffsetForLeaderTopicResult23.first 1) _ _)
    |>.andThen (.structs (get := fun (t : OffsetForLeaderTopicResult23) => t.Partitions) (set := fun (t : OffsetForLeaderTopicResult23) x => { t with Partitions := x }) (OffsetForLeaderPartitionResult23.rewrites version) (fun _ => rfl) (fun _ => rfl) (fun _ => rfl) (fun _ _ => rfl) (fun _ _ => rfl) (fun _ _ => rfl) : RewriteStep _ (OffsetForLeaderTopicResult23.first 1) (OffsetForLeaderTopicResult23.first 2) _ _)).whole {} rfl (fun _ => rfl) (fun _ h => ⟨h.1, h.2⟩)

theorem OffsetForLeaderEpochResponse.rewrites (version : Int16) : Rewrites (OffsetForLeaderEpochResponse.decode version {}) (OffsetForLeaderEpochResponse.wire version) (OffsetForLeaderEpochResponse.Fits version) :=
  ((.onlyIf (g := version ≥ 2) (.field (get := fun (t : OffsetForLeaderEpochResponse) => t.ThrottleTimeMs) (set := fun (t : OffsetForLeaderEpochResponse) x => { t with ThrottleTimeMs := x }) .int32 (fun _ => rfl) (fun _ => rfl) (fun _ _ => rfl) (fun _ _ => rfl) (fun _ _ => rfl)) (fun _ => rfl) : RewriteStep _ (OffsetForLeaderEpochResponse.first 0) (OffsetForLeaderEpochResponse.first 1) _ _)
    |>.andThen (.structs (get := fun (t : OffsetForLeaderEpochResponse) => t.Topics) (set := fun (t : OffsetForLeaderEpochResponse) x => { t with Topics := x }) (OffsetForLeaderTopicResult23.rewrites version) (fun _ => rfl) (fun _ => rfl) (fun _ => rfl) (fun _ _ => rfl) (fun _ _ => rfl) (fun _ _ => rfl) : RewriteStep _ (OffsetForLeaderEpochResponse.first 1) (OffsetForLeaderEpochResponse.first 2) _ _)).whole {} rfl (fun _ => rfl) (fun _ h => ⟨h.2⟩)

theorem rewritesOffsetForLeaderEpoch : ∀ p ∈ typesOffsetForLeaderEpoch, ∀ v, Rewrites (p.1.decode v p.1.zero) (p.2.wire v) (p.2.Fits v) := by
  unfold typesOffsetForLeaderEpoch
  simp only [List.forall_mem_cons]
  exact ⟨OffsetForLeaderEpochRequest.rewrites, OffsetForLeaderTopic23.rewrites, OffsetForLeaderPartition23.rewrites, OffsetForLeaderEpochResponse.rewrites, OffsetForLeaderTopicResult23.rewrites, OffsetForLeaderPartitionResult23.rewrites, fun _ h => absurd h (by simp)⟩

end Kafka.Msg
