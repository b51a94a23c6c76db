import Verif.Message.Rewrites
import Verif.Gen.Kept.OffsetCommit
import Verif.Gen.All
/-!
Generated by tools/gen_messages.py: encoding OffsetCommit messages that were decoded.
-/
namespace Kafka.Msg

theorem OffsetCommitRequestPartition8.rewrites (version : Int16) : Rewrites (OffsetCommitRequestPartition8.decode version {}) (OffsetCommitRequestPartition8.wire version) (OffsetCommitRequestPartition8.Fits version) :=
  ((.field (get := fun (t : OffsetCommitRequestPartition8) => t.PartitionIndex) (set := fun (t : OffsetCommitRequestPartition8) x => { t with PartitionIndex := x }) .int32 (fun _ => rfl) (fun _ => rfl) (fun _ _ => rfl) (fun _ _ => rfl) (fun _ _ => rfl) : RewriteStep _ (OffsetCommitRequestPartition8.first 0) (OffsetCommitRequestPartition8.first 1) _ _)
    |>.andThen (.field (get := fun (t : OffsetCommitRequestPartition8) => t.CommittedOffset) (set := fun (t : OffsetCommitRequestPartition8) x => { t with CommittedOffset := x }) .int64 (fun _ => rfl) (fun _ => rfl) (fun _ _ => rfl) (fun _ _ => rfl) (fun _ _ => rfl) : RewriteStep _ (OffsetCommitRequestPartition8.first 1) (OffsetCommitRequestPartition8.first 2) _ _)
    |>.andThen (.onlyIf (g := version ≥ 6) (.field (get := fun (t : OffsetCommitRequestPartition8) => t.CommittedLeaderEpoch) (set := fun (t : OffsetCommitRequestPartition8) x => { t with CommittedLeaderEpoch := x }) .int32 (fun _ => rfl) (fun _ => rfl) (fun _ _ => rfl) (fun _ _ => rfl) (fun _ _ => rfl)) (fun _ => rfl) : RewriteStep _ (OffsetCommitRequestPartition8.first 2) (OffsetCommitRequestPartition8.first 3) _ _)
    |>.andThen (.field (get := fun (t : OffsetCommitRequestPartition8) => t.CommittedMetadata) (set := fun (t : OffsetCommitRequestPartition8) x => { t with CommittedMetadata := x }) .string (fun _ => rfl) (fun _ => rfl) (fun _ _ => rfl) (fun _ _ => rfl) (fun _ _ => rfl) : RewriteStep _ (OffsetCommitRequestPartition8.first 3) (OffsetCommitRequestPartition8.first 4) _ _)).whole {} rfl (fun _ => rfl) (fun _ h => ⟨h.2⟩)

theorem OffsetCommitRequestTopic8.rewrites (version : Int16) : Rewrites (OffsetCommitRequestTopic8.decode version {}) (OffsetCommitRequestTopic8.wire version) (OffsetCommitRequestTopic8.Fits version) :=
  ((.field (get := fun (t : OffsetCommitRequestTopic8) => t.Name) (set := fun (t : OffsetCommitRequestTopic8) x => { t with Name := x }) .string (fun _ => rfl) (fun _ => rfl) (fun _ _ => rfl) (fun _ _ => rfl) (fun _ _ => rfl) : RewriteStep _ (OffsetCommitRequestTopic8.first 0) (OffsetCommitRequestTopic8.first 1) _ _)
    |>.andThen (.structs (get := fun (t : OffsetCommitRequestTopic8) => t.Partitions) (set := fun (t : OffsetCommitRequestTopic8) x => { t with Partitions := x }) (OffsetCommitRequestPartition8.rewrites version) (fun _ => rfl) (fun _ => rfl) (fun _ => rfl) (fun _ _ => rfl) (fun _ _ => rfl) (fun _ _ => rfl) : RewriteStep _ (OffsetCommitRequestTopic8.first 1) (OffsetCommitRequestTopic8.first 2) _ _)).whole {} rfl (fun _ => rfl) (fun _ h => ⟨h.1, h.2⟩)

theorem OffsetCommitRequest.rewrites (version : Int16) : Rewrites (OffsetCommitRequest.decode version {}) (OffsetCommitRequest.wire version) (OffsetCommitRequest.Fits version) :=
  ((.field (get := fun (t : OffsetCommitRequest) => t.GroupId) (set := fun (t : OffsetCommitRequest) x => { t with GroupId := x }) .string (fun _ => rfl) (fun _ => rfl) (fun _ _ => rfl) (fun _ _ => rfl) (fun _ _ => rfl) : RewriteStep _ (OffsetCommitRequest.first 0) (OffsetCommitRequest.first 1) _ _)
    |>.andThen (.onlyIf (g := version ≥ 1) (.field (get := fun (t : OffsetCommitRequest) => t.GenerationId) (set := fun (t : OffsetCommitRequest) x => { t with GenerationId := x }) .int32 (fun _ => rfl) (fun _ => rfl) (fun _ _ => rfl) (fun _ _ => rfl) (fun _ _ => rfl)) (fun _ => rfl) : RewriteStep _ (OffsetCommitRequest.first 1) (OffsetCommitRequest.first 2) _ _)
    |>.andThen (.onlyIf (g := version ≥ 1) (.field (get := fun (t : OffsetCommitRequest) => t.MemberId) (set := fun (t : OffsetCommitRequest) x => { t with MemberId := x }) .string (fun _ => rfl) (fun _ => rfl) (fun _ _ => rfl) (fun _ _ => rfl) (fun _ _ => rfl)) (fun _ => rfl) : RewriteStep _ (OffsetCommitRequest.first 2) (OffsetCommitRequest.first 3) _ _)
    |>.andThen (.onlyIf (g := version ≥ 7) (.field (get := fun (t : OffsetCommitRequest) => t.GroupInstanceId) (set := fun (t : OffsetCommitRequest) x => { t with GroupInstanceId := x }) .string (fun _ => rfl) (fun _ => rfl) (fun _ _ => rfl) (fun _ _ => rfl) (fun _ _ => rfl)) (fun _ => rfl) : RewriteStep _ (OffsetCommitRequest.first 3) (OffsetCommitRequest.first 4) _ _)
    |>.andThen (.onlyIf (g := version ≥ 2 ∧ version ≤ 4) (.field (get := fun (t : OffsetCommitRequest) => t.RetentionTimeMs) (set := fun (t : OffsetCommitRequest) x => { t with RetentionTimeMs := x }) .int64 (fun _ => rfl) (fun _ => rfl) (fun _ _ => rfl) (fun _ _ => rfl) (fun _ _ => rfl)) (fun _ => rfl) : RewriteStep _ (OffsetCommitRequest.first 4) (OffsetCommitRequest.first 5) _ _)
    |>.andThen (.structs (get := fun (t : OffsetCommitRequest) => t.Topics) (set := fun (t : OffsetCommitRequest) x => { t with Topics := x }) (OffsetCommitRequestTopic8.rewrites version) (fun _ => rfl) (fun _ => rfl) (fun _ => rfl) (fun _ _ => rfl) (fun _ _ => rfl) (fun _ _ => rfl) : RewriteStep _ (OffsetCommitRequest.first 5) (OffsetCommitRequest.first 6) _ _)).whole {} rfl (fun _ => rfl) (fun _ h => ⟨h.1.1.1.1.1, h.1.1.1.2, h.1.1.2, h.2⟩)

theorem OffsetCommitResponsePartition8.rewrites (version : Int16) : Rewrites (OffsetCommitResponsePartition8.decode version {}) (OffsetCommitResponsePartition8.wire version) (OffsetCommitResponsePartition8.Fits version) :=
  ((.field (get := fun (t : OffsetCommitResponsePartition8) => t.PartitionIndex) (set := fun (t : OffsetCommitResponsePartition8) x => { t with PartitionIndex := x }) .int32 (fun _ => rfl) (fun _ => rfl) (fun _ _ => rfl) (fun _ _ => rfl) (fun _ _ => rfl) : RewriteStep _ (OffsetCommitResponsePartition8.first 0) (OffsetCommitResponsePartition8.first 1) _ _)
    |>.andThen (.field (get := fun (t : OffsetCommitResponsePartition8) => t.ErrorCode) (set := fun (t : OffsetCommitResponsePartition8) x => { t with ErrorCode := x }) .int16 (fun _ => rfl) (fun _ => rfl) (fun _ _ => rfl) (fun _ _ => rfl) (fun _ _ => rfl) : RewriteStep _ (OffsetCommitResponsePartition8.first 1) (OffsetCommitResponsePartition8.first 2) _ _)).whole {} rfl (fun _ => rfl) (fun _ _ => trivial)

theorem OffsetCommitResponseTopic8.rewrites (version : Int16) : Rewrites (OffsetCommitResponseTopic8.decode version {}) (OffsetCommitResponseTopic8.wire version) (OffsetCommitResponseTopic8.Fits version) :=
  ((.field (get := fun (t : OffsetCommitResponseTopic8) => t.Name) (set := fun (t : OffsetCommitResponseTopic8) x => { t with Name := x }) .string (fun _ => rfl) (fun _ => rfl) (fun _ _ => rfl) (fun _ _ => rfl) (fun _ _ => rfl) : RewriteStep _ (OffsetCommitResponseTopic8.first 0) (OffsetCommitResponseTopic8.first 1) _ _)
    |>.andThen (.structs (get := fun (t : OffsetCommitResponseTopic8) => t.Partitions) (set := fun (t : OffsetCommitResponseTopic8) x => { t with Partitions := x }) (OffsetCommitResponsePartition8.rewrites version) (fun _ => rfl) (fun _ => rfl) (fun _ => rfl) (fun _ _ => rfl) (fun _ _ => rfl) (fun _ _ => rfl) : RewriteStep _ (OffsetCommitResponseTopic8.first 1) (OffsetCommitResponseTopic8.first 2) _ _)).whole {} rfl (fun _ => rfl) (fun _ h => ⟨h.1, h.2⟩)

theorem OffsetCommitResponse.rewrites (version : Int16) : Rewrites (OffsetCommitResponse.decode version {}) (OffsetCommitResponse.wire version) (OffsetCommitResponse.Fits version) :=
  ((.onlyIf (g := version ≥ 3) (.field (get := fun (t : OffsetCommitResponse) => t.ThrottleTimeMs) (set := fun (t : OffsetCommitResponse) x => { t with ThrottleTimeMs := x }) .int32 (fun _ => rfl) (fun _ => rfl) (fun _ _ => rfl) (fun _ _ => rfl) (fun _ _ => rfl)) (fun _ => rfl) : RewriteStep _ (OffsetCommitResponse.first 0) (OffsetCommitResponse.first 1) _ _)
    |>.andThen (.structs (get := fun (t : OffsetCommitResponse) => t.Topics) (set := fun (t : OffsetCommitResponse) x => { t with Topics := x }) (OffsetCommitResponseTopic8.rewrites version) (fun _ => rfl) (fun _ => rfl) (fun _ => rfl) (fun _ _ => rfl) (fun _ _ => rfl) (fun _ _ => rfl) : RewriteStep _ (OffsetCommitResponse.first 1) (OffsetCommitResponse.first 2) _ _)).whole {} rfl (fun _ => rfl) (fun _ h => ⟨h.2⟩)

theorem rewritesOffsetCommit : ∀ p ∈ typesOffsetCommit, ∀ v, Rewrites (p.1.decode v p.1.zero) (p.2.wire v) (p.2.Fits v) := by
  unfold typesOffsetCommit
  simp only [List.forall_mem_cons]
  exact ⟨OffsetCommitRequest.rewrites, OffsetCommitRequestTopic8.rewrites, OffsetCommitRequestPartition8.rewrites, OffsetCommitResponse.rewrites, OffsetCommitResponseTopic8.rewrites, OffsetCommitResponsePartition8.rewrites, fun _ h => absurd h (by simp)⟩

end Kafka.Msg
