import Verif.Message.Rewrites
import Verif.Gen.Kept.DescribeLogDirs
import Verif.Gen.All
/-!
Generated by tools/gen_messages.py: encoding DescribeLogDirs messages that were decoded.
-/
namespace Kafka.Msg

theorem DescribableLogDirTopic35.rewrites (version : Int16) : Rewrites (DescribableLogDirTopic35.decode version {}) (DescribableLogDirTopic35.wire version) (DescribableLogDirTopic35.Fits version) :=
  ((.field (get := fun (t : DescribableLogDirTopic35) => t.Topic) (set := fun (t : DescribableLogDirTopic35) x => { t with Topic := x }) .string (fun _ => rfl) (fun _ => rfl) (fun _ _ => rfl) (fun _ _ => rfl) (fun _ _ => rfl) : RewriteStep _ (DescribableLogDirTopic35.first 0) (DescribableLogDirTopic35.first 1) _ _)
    |>.andThen (.field (get := fun (t : DescribableLogDirTopic35) => t.PartitionIndex) (set := fun (t : DescribableLogDirTopic35) x => { t with PartitionIndex := x }) .int32Array (fun _ => rfl) (fun _ => rfl) (fun _ _ => rfl) (fun _ _ => rfl) (fun _ _ => rfl) : RewriteStep _ (DescribableLogDirTopic35.first 1) (DescribableLogDirTopic35.first 2) _ _)).whole {} rfl (fun _ => rfl) (fun _ h => ⟨h.1, h.2⟩)

theorem DescribeLogDirsRequest.rewrites (version : Int16) : Rewrites (DescribeLogDirsRequest.decode version {}) (DescribeLogDirsRequest.wire version) (DescribeLogDirsRequest.Fits version) :=
  ((.structs (get := fun (t : DescribeLogDirsRequest) => t.Topics) (set := fun (t : DescribeLogDirsRequest) x => { t with Topics := x }) (DescribableLogDirTopic35.rewrites version) (fun _ => rfl) (fun _ => rfl) (fun _ => rfl) (fun _ _ => rfl) (fun _ _ => rfl) (fun _ _ => rfl) : RewriteStep _ (DescribeLogDirsRequest.first 0) (DescribeLogDirsRequest.first 1) _ _)).whole {} rfl (fun _ => rfl) (fun _ h => ⟨h⟩)

theorem DescribeLogDirsPartition35.rewrites (version : Int16) : Rewrites (DescribeLogDirsPartition35.decode version {}) (DescribeLogDirsPartition35.wire version) (DescribeLogDirsPartition35.Fits version) :=
  ((.field (get := fun (t : DescribeLogDirsPartition35) => t.PartitionIndex) (set := fun (t : DescribeLogDirsPartition35) x => { t with PartitionIndex := x }) .int32 (fun _ => rfl) (fun _ => rfl) (fun _ _ => rfl) (fun _ _ => rfl) (fun _ _ => rfl) : RewriteStep _ (DescribeLogDirsPartition35.first 0) (DescribeLogDirsPartition35.first 1) _ _)
    |>.andThen (.field (get := fun (t : DescribeLogDirsPartition35) => t.PartitionSize) (set := fun (t : DescribeLogDirsPartition35) x => { t with PartitionSize := x }) .int64 (fun _ => rfl) (fun _ => rfl) (fun _ _ => rfl) (fun _ _ => rfl) (fun _ _ => rfl) : RewriteStep _ (DescribeLogDirsPartition35.first 1) (DescribeLogDirsPartition35.first 2) _ _)
    |>.andThen (.field (get := fun (t : DescribeLogDirsPartition35) => t.OffsetLag) (set := fun (t : DescribeLogDirsPartition35) x => { t with OffsetLag := x }) .int64 (fun _ => rfl) (fun _ => rfl) (fun _ _ => rfl) (fun _ _ => rfl) (fun _ _ => rfl) : RewriteStep _ (DescribeLogDirsPartition35.first 2) (DescribeLogDirsPartition35.first 3) _ _)
    |>.andThen (.field (get := fun (t : DescribeLogDirsPartition35) => t.IsFutureKey) (set := fun (t : DescribeLogDirsPartition35) x => { t with IsFutureKey := x }) .bool (fun _ => rfl) (fun _ => rfl) (fun _ _ => rfl) (fun _ _ => rfl) (fun _ _ => rfl) : RewriteStep _ (DescribeLogDirsPartition35.first 3) (DescribeLogDirsPartition35.first 4) _ _)).whole {} rfl (fun _ => rfl) (fun _ _ => trivial)

theorem DescribeLogDirsTopic35.rewrites (version : Int16) : Rewrites (DescribeLogDirsTopic35.decode version {}) (DescribeLogDirsTopic35.wire version) (DescribeLogDirsTopic35.Fits version) :=
  ((.field (get := fun (t : DescribeLogDirsTopic35) => t.Name) (set := fun (t : DescribeLogDirsTopic35) x => { t with Name := x }) .string (fun _ => rfl) (fun _ => rfl) (fun _ _ => rfl) (fun _ _ => rfl) (fun _ _ => rfl) : RewriteStep _ (DescribeLogDirsTopic35.first 0) (DescribeLogDirsTopic35.first 1) _ _)
    |>.andThen (.structs (get := fun (t : DescribeLogDirsTopic35) => t.Partitions) (set := fun (t : DescribeLogDirsTopic35) x => { t with Partitions := x }) (DescribeLogDirsPartition35.rewrites version) (fun _ => rfl) (fun _ => rfl) (fun _ => rfl) (fun _ _ => rfl) (fun _ _ => rfl) (fun _ _ => rfl) : RewriteStep _ (DescribeLogDirsTopic35.first 1) (DescribeLogDirsTopic35.first 2) _ _)).whole {} rfl (fun _ => rfl) (fun _ h => ⟨h.1, h.2⟩)

theorem DescribeLogDirsResult35.rewrites (version : Int16) : Rewrites (DescribeLogDirsResult35.decode version {}) (DescribeLogDirsResult35.wire version) (DescribeLogDirsResult35.Fits version) :=
  ((.field (get := fun (t : DescribeLogDirsResult35) => t.ErrorCode) (set := fun (t : DescribeLogDirsResult35) x => { t with ErrorCode := x }) .int16 (fun _ => rfl) (fun _ => rfl) (fun _ _ => rfl) (fun _ _ => rfl) (fun _ _ => rfl) : RewriteStep _ (DescribeLogDirsResult35.first 0) (DescribeLogDirsResult35.first 1) _ _)
    |>.andThen (.field (get := fun (t : DescribeLogDirsResult35) => t.LogDir) (set := fun (t : DescribeLogDirsResult35) x => { t with LogDir := x }) .string (fun _ => rfl) (fun _ => rfl) (fun _ _ => rfl) (fun _ _ => rfl) (fun _ _ => rfl) : RewriteStep _ (DescribeLogDirsResult35.first 1) (DescribeLogDirsResult35.first 2) _ _)
    |>.andThen (.structs (get := fun (t : DescribeLogDirsResult35) => t.Topics) (set := fun (t : DescribeLogDirsResult35) x => { t with Topics := x }) (DescribeLogDirsTopic35.rewrites version) (fun _ => rfl) (fun _ => rfl) (fun _ => rfl) (fun _ _ => rfl) (fun _ _ => rfl) (fun _ _ => rfl) : RewriteStep _ (DescribeLogDirsResult35.first 2) (DescribeLogDirsResult35.first 3) _ _)).whole {} rfl (fun _ => rfl) (fun _ h => ⟨h.1.2, h.2⟩)

theorem DescribeLogDirsResponse.rewrites (version : Int16) : Rewrites (DescribeLogDirsResponse.decode version {}) (DescribeLogDirsResponse.wire version) (DescribeLogDirsResponse.Fits version) :=
  ((.field (get := fun (t : DescribeLogDirsResponse) => t.ThrottleTimeMs) (set := fun (t : DescribeLogDirsResponse) x => { t with ThrottleTimeMs := x }) .int32 (fun _ => rfl) (fun _ => rfl) (fun _ _ => rfl) (fun _ _ => rfl) (fun _ _ => rfl) : RewriteStep _ (DescribeLogDirsResponse.first 0) (DescribeLogDirsResponse.first 1) _ _)
    |>.andThen (.structs (get := fun (t : DescribeLogDirsResponse) => t.Results) (set := fun (t : DescribeLogDirsResponse) x => { t with Results := x }) (DescribeLogDirsResult35.rewrites version) (fun _ => rfl) (fun _ => rfl) (fun _ => rfl) (fun _ _ => rfl) (fun _ _ => rfl) (fun _ _ => rfl) : RewriteStep _ (DescribeLogDirsResponse.first 1) (DescribeLogDirsResponse.first 2) _ _)).whole {} rfl (fun _ => rfl) (fun _ h => ⟨h.2⟩)

theorem rewritesDescribeLogDirs : ∀ p ∈ typesDescribeLogDirs, ∀ v, Rewrites (p.1.decode v p.1.zero) (p.2.wire v) (p.2.Fits v) := by
  unfold typesDescribeLogDirs
  simp only [List.forall_mem_cons]
  exact ⟨DescribeLogDirsRequest.rewrites, DescribableLogDirTopic35.rewrites, DescribeLogDirsResponse.rewrites, DescribeLogDirsResult35.rewrites, DescribeLogDirsTopic35.rewrites, DescribeLogDirsPartition35.rewrites, fun _ h => absurd h (by simp)⟩

end Kafka.Msg
