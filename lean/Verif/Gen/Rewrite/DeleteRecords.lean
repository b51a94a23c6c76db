import Verif.Message.Rewrites
import Verif.Gen.Kept.DeleteRecords
import Verif.Gen.All
/-!
Generated by tools/gen_messages.py: encoding DeleteRecords messages that were decoded.
-/
namespace Kafka.Msg

theorem DeleteRecordsPartition21.rewrites (version : Int16) : Rewrites (DeleteRecordsPartition21.decode version {}) (DeleteRecordsPartition21.wire version) (DeleteRecordsPartition21.Fits version) :=
  ((.field (get := fun (t : DeleteRecordsPartition21) => t.PartitionIndex) (set := fun (t : DeleteRecordsPartition21) x => { t with PartitionIndex := x }) .int32 (fun _ => rfl) (fun _ => rfl) (fun _ _ => rfl) (fun _ _ => rfl) (fun _ _ => rfl) : RewriteStep _ (DeleteRecordsPartition21.first 0) (DeleteRecordsPartition21.first 1) _ _)
    |>.andThen (.field (get := fun (t : DeleteRecordsPartition21) => t.Offset) (set := fun (t : DeleteRecordsPartition21) x => { t with Offset := x }) .int64 (fun _ => rfl) (fun _ => rfl) (fun _ _ => rfl) (fun _ _ => rfl) (fun _ _ => rfl) : RewriteStep _ (DeleteRecordsPartition21.first 1) (DeleteRecordsPartition21.first 2) _ _)).whole {} rfl (fun _ => rfl) (fun _ _ => trivial)

theorem DeleteRecordsTopic21.rewrites (version : Int16) : Rewrites (DeleteRecordsTopic21.decode version {}) (DeleteRecordsTopic21.wire version) (DeleteRecordsTopic21.Fits version) :=
  ((.field (get := fun (t : DeleteRecordsTopic21) => t.Name) (set := fun (t : DeleteRecordsTopic21) x => { t with Name := x }) .string (fun _ => rfl) (fun _ => rfl) (fun _ _ => rfl) (fun _ _ => rfl) (fun _ _ => rfl) : RewriteStep _ (DeleteRecordsTopic21.first 0) (DeleteRecordsTopic21.first 1) _ _)
    |>.andThen (.structs (get := fun (t : DeleteRecordsTopic21) => t.Partitions) (set := fun (t : DeleteRecordsTopic21) x => { t with Partitions := x }) (DeleteRecordsPartition21.rewrites version) (fun _ => rfl) (fun _ => rfl) (fun _ => rfl) (fun _ _ => rfl) (fun _ _ => rfl) (fun _ _ => rfl) : RewriteStep _ (DeleteRecordsTopic21.first 1) (DeleteRecordsTopic21.first 2) _ _)).whole {} rfl (fun _ => rfl) (fun _ h => ⟨h.1, h.2⟩)

theorem DeleteRecordsRequest.rewrites (version : Int16) : Rewrites (DeleteRecordsRequest.decode version {}) (DeleteRecordsRequest.wire version) (DeleteRecordsRequest.Fits version) :=
  ((.structs (get := fun (t : DeleteRecordsRequest) => t.Topics) (set := fun (t : DeleteRecordsRequest) x => { t with Topics := x }) (DeleteRecordsTopic21.rewrites version) (fun _ => rfl) (fun _ => rfl) (fun _ => rfl) (fun _ _ => rfl) (fun _ _ => rfl) (fun _ _ => rfl) : RewriteStep _ (DeleteRecordsRequest.first 0) (DeleteRecordsRequest.first 1) _ _)
    |>.andThen (.field (get := fun (t : DeleteRecordsRequest) => t.TimeoutMs) (set := fun (t : DeleteRecordsRequest) x => { t with TimeoutMs := x }) .int32 (fun _ => rfl) (fun _ => rfl) (fun _ _ => rfl) (fun _ _ => rfl) (fun _ _ => rfl) : RewriteStep _ (DeleteRecordsRequest.first 1) (DeleteRecordsRequest.first 2) _ _)).whole {} rfl (fun _ => rfl) (fun _ h => ⟨h.1⟩)

theorem DeleteRecordsPartitionResult21.rewrites (version : Int16) : Rewrites (DeleteRecordsPartitionResult21.decode version {}) (DeleteRecordsPartitionResult21.wire version) (DeleteRecordsPartitionResult21.Fits version) :=
  ((.field (get := fun (t : DeleteRecordsPartitionResult21) => t.PartitionIndex) (set := fun (t : DeleteRecordsPartitionResult21) x => { t with PartitionIndex := x }) .int32 (fun _ => rfl) (fun _ => rfl) (fun _ _ => rfl) (fun _ _ => rfl) (fun _ _ => rfl) : RewriteStep _ (DeleteRecordsPartitionResult21.first 0) (DeleteRecordsPartitionResult21.first 1) _ _)
    |>.andThen (.field (get := fun (t : DeleteRecordsPartitionResult21) => t.LowWatermark) (set := fun (t : DeleteRecordsPartitionResult21) x => { t with LowWatermark := x }) .int64 (fun _ => rfl) (fun _ => rfl) (fun _ _ => rfl) (fun _ _ => rfl) (fun _ _ => rfl) : RewriteStep _ (DeleteRecordsPartitionResult21.first 1) (DeleteRecordsPartitionResult21.first 2) _ _)
    |>.andThen (.field (get := fun (t : DeleteRecordsPartitionResult21) => t.ErrorCode) (set := fun (t : DeleteRecordsPartitionResult21) x => { t with ErrorCode := x }) .int16 (fun _ => rfl) (fun _ => rfl) (fun _ _ => rfl) (fun _ _ => rfl) (fun _ _ => rfl) : RewriteStep _ (DeleteRecordsPartitionResult21.first 2) (DeleteRecordsPartitionResult21.first 3) _ _)).whole {} rfl (fun _ => rfl) (fun _ _ => trivial)

theorem DeleteRecordsTopicResult21.rewrites (version : Int16) : Rewrites (DeleteRecordsTopicResult21.decode version {}) (DeleteRecordsTopicResult21.wire version) (DeleteRecordsTopicResult21.Fits version) :=
  ((.field (get := fun (t : DeleteRecordsTopicResult21) => t.Name) (set := fun (t : DeleteRecordsTopicResult21) x => { t with Name := x }) .string (fun _ => rfl) (fun _ => rfl) (fun _ _ => rfl) (fun _ _ => rfl) (fun _ _ => rfl) : RewriteStep _ (DeleteRecordsTopicResult21.first 0) (DeleteRecordsTopicResult21.first 1) _ _)
    |>.andThen (.structs (get := fun (t : DeleteRecordsTopicResult21) => t.Partitions) (set := fun (t : DeleteRecordsTopicResult21) x => { t with Partitions := x }) (DeleteRecordsPartitionResult21.rewrites version) (fun _ => rfl) (fun _ => rfl) (fun _ => rfl) (fun _ _ => rfl) (fun _ _ => rfl) (fun _ _ => rfl) : RewriteStep _ (DeleteRecordsTopicResult21.first 1) (DeleteRecordsTopicResult21.first 2) _ _)).whole {} rfl (fun _ => rfl) (fun _ h => ⟨h.1, h.2⟩)

theorem DeleteRecordsResponse.rewrites (version : Int16) : Rewrites (DeleteRecordsResponse.decode version {}) (DeleteRecordsResponse.wire version) (DeleteRecordsResponse.Fits version) :=
  ((.field (get := fun (t : DeleteRecordsResponse) => t.ThrottleTimeMs) (set := fun (t : DeleteRecordsResponse) x => { t with ThrottleTimeMs := x }) .int32 (fun _ => rfl) (fun _ => rfl) (fun _ _ => rfl) (fun _ _ => rfl) (fun _ _ => rfl) : RewriteStep _ (DeleteRecordsResponse.first 0) (DeleteRecordsResponse.first 1) _ _)
    |>.andThen (.structs (get := fun (t : DeleteRecordsResponse) => t.Topics) (set := fun (t : DeleteRecordsResponse) x => { t with Topics := x }) (DeleteRecordsTopicResult21.rewrites version) (fun _ => rfl) (fun _ => rfl) (fun _ => rfl) (fun _ _ => rfl) (fun _ _ => rfl) (fun _ _ => rfl) : RewriteStep _ (DeleteRecordsResponse.first 1) (DeleteRecordsResponse.first 2) _ _)).whole {} rfl (fun _ => rfl) (fun _ h => ⟨h.2⟩)

theorem rewritesDeleteRecords : ∀ p ∈ typesDeleteRecords, ∀ v, Rewrites (p.1.decode v p.1.zero) (p.2.wire v) (p.2.Fits v) := by
  unfold typesDeleteRecords
  simp only [List.forall_mem_cons]
  exact ⟨DeleteRecordsRequest.rewrites, DeleteRecordsTopic21.rewrites, DeleteRecordsPartition21.rewrites, DeleteRecordsResponse.rewrites, DeleteRecordsTopicResult21.rewrites, DeleteRecordsPartitionResult21.rewrites, fun _ h => absurd h (by simp)⟩

end Kafka.Msg
