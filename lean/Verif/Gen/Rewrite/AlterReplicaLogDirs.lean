import Verif.Message.Rewrites
import Verif.Gen.Kept.AlterReplicaLogDirs
import Verif.Gen.All
/-!
Generated by tools/gen_messages.py: encoding AlterReplicaLogDirs messages that were decoded.
-/
namespace Kafka.Msg

theorem AlterReplicaLogDirTopic34.rewrites (version : Int16) : Rewrites (AlterReplicaLogDirTopic34.decode version {}) (AlterReplicaLogDirTopic34.wire version) (AlterReplicaLogDirTopic34.Fits version) :=
  ((.field (get := fun (t : AlterReplicaLogDirTopic34) => t.Name) (set := fun (t : AlterReplicaLogDirTopic34) x => { t with Name := x }) .string (fun _ => rfl) (fun _ => rfl) (fun _ _ => rfl) (fun _ _ => rfl) (fun _ _ => rfl) : RewriteStep _ (AlterReplicaLogDirTopic34.first 0) (AlterReplicaLogDirTopic34.first 1) _ _)
    |>.andThen (.field (get := fun (t : AlterReplicaLogDirTopic34) => t.Partitions) (set := fun (t : AlterReplicaLogDirTopic34) x => { t with Partitions := x }) .int32Array (fun _ => rfl) (fun _ => rfl) (fun _ _ => rfl) (fun _ _ => rfl) (fun _ _ => rfl) : RewriteStep _ (AlterReplicaLogDirTopic34.first 1) (AlterReplicaLogDirTopic34.first 2) _ _)).whole {} rfl (fun _ => rfl) (fun _ h => ⟨h.1, h.2⟩)

theorem AlterReplicaLogDir34.rewrites (version : Int16) : Rewrites (AlterReplicaLogDir34.decode version {}) (AlterReplicaLogDir34.wire version) (AlterReplicaLogDir34.Fits version) :=
  ((.field (get := fun (t : AlterReplicaLogDir34) => t.Path) (set := fun (t : AlterReplicaLogDir34) x => { t with Path := x }) .string (fun _ => rfl) (fun _ => rfl) (fun _ _ => rfl) (fun _ _ => rfl) (fun _ _ => rfl) : RewriteStep _ (AlterReplicaLogDir34.first 0) (AlterReplicaLogDir34.first 1) _ _)
    |>.andThen (.structs (get := fun (t : AlterReplicaLogDir34) => t.Topics) (set := fun (t : AlterReplicaLogDir34) x => { t with Topics := x }) (AlterReplicaLogDirTopic34.rewrites version) (fun _ => rfl) (fun _ => rfl) (fun _ => rfl) (fun _ _ => rfl) (fun _ _ => rfl) (fun _ _ => rfl) : RewriteStep _ (AlterReplicaLogDir34.first 1) (AlterReplicaLogDir34.first 2) _ _)).whole {} rfl (fun _ => rfl) (fun _ h => ⟨h.1, h.2⟩)

theorem AlterReplicaLogDirsRequest.rewrites (version : Int16) : Rewrites (AlterReplicaLogDirsRequest.decode version {}) (AlterReplicaLogDirsRequest.wire version) (AlterReplicaLogDirsRequest.Fits version) :=
  ((.structs (get := fun (t : AlterReplicaLogDirsRequest) => t.Dirs) (set := fun (t : AlterReplicaLogDirsRequest) x => { t with Dirs := x }) (AlterReplicaLogDir34.rewrites version) (fun _ => rfl) (fun _ => rfl) (fun _ => rfl) (fun _ _ => rfl) (fun _ _ => rfl) (fun _ _ => rfl) : RewriteStep _ (AlterReplicaLogDirsRequest.first 0) (AlterReplicaLogDirsRequest.first 1) _ _)).whole {} rfl (fun _ => rfl) (fun _ h => ⟨h⟩)

theorem AlterReplicaLogDirPartitionResult34.rewrites (version : Int16) : Rewrites (AlterReplicaLogDirPartitionResult34.decode version {}) (AlterReplicaLogDirPartitionResult34.wire version) (AlterReplicaLogDirPartitionResult34.Fits version) :=
  ((.field (get := fun (t : AlterReplicaLogDirPartitionResult34) => t.PartitionIndex) (set := fun (t : AlterReplicaLogDirPartitionResult34) x => { t with PartitionIndex := x }) .int32 (fun _ => rfl) (fun _ => rfl) (fun _ _ => rfl) (fun _ _ => rfl) (fun _ _ => rfl) : RewriteStep _ (AlterReplicaLogDirPartitionResult34.first 0) (AlterReplicaLogDirPartitionResult34.first 1) _ _)
    |>.andThen (.field (get := fun (t : AlterReplicaLogDirPartitionResult34) => t.ErrorCode) (set := fun (t : AlterReplicaLogDirPartitionResult34) x => { t with ErrorCode := x }) .int16 (fun _ => rfl) (fun _ => rfl) (fun _ _ => rfl) (fun _ _ => rfl) (fun _ _ => rfl) : RewriteStep _ (AlterReplicaLogDirPartitionResult34.first 1) (AlterReplicaLogDirPartitionResult34.first 2) _ _)).whole {} rfl (fun _ => rfl) (fun _ _ => trivial)

theorem AlterReplicaLogDirTopicResult34.rewrites (version : Int16) : Rewrites (AlterReplicaLogDirTopicResult34.decode version {}) (AlterReplicaLogDirTopicResult34.wire version) (AlterReplicaLogDirTopicResult34.Fits version) :=
  ((.field (get := fun (t : AlterReplicaLogDirTopicResult34) => t.TopicName) (set := fun (t : AlterReplicaLogDirTopicResult34) x => { t with TopicName := x }) .string (fun _ => rfl) (fun _ => rfl) (fun _ _ => rfl) (fun _ _ => rfl) (fun _ _ => rfl) : RewriteStep _ (AlterReplicaLogDirTopicResult34.first 0) (AlterReplicaLogDirTopicResult34.first 1) _ _)
    |>.andThen (.structs (get := fun (t : AlterReplicaLogDirTopicResult34) => t.Partitions) (set := fun (t : AlterReplicaLogDirTopicResult34) x => { t with Partitions := x }) (AlterReplicaLogDirPartitionResult34.rewrites version) (fun _ => rfl) (fun _ => rfl) (fun _ => rfl) (fun _ _ => rfl) (fun _ _ => rfl) (fun _ _ => rfl) : RewriteStep _ (AlterReplicaLogDirTopicResult34.first 1) (AlterReplicaLogDirTopicResult34.first 2) _ _)).whole {} rfl (fun _ => rfl) (fun _ h => ⟨h.1, h.2⟩)

theorem AlterReplicaLogDirsResponse.rewrites (version : Int16) : Rewrites (AlterReplicaLogDirsResponse.decode version {}) (AlterReplicaLogDirsResponse.wire version) (AlterReplicaLogDirsResponse.Fits version) :=
  ((.field (get := fun (t : AlterReplicaLogDirsResponse) => t.ThrottleTimeMs) (set := fun (t : AlterReplicaLogDirsResponse) x => { t with ThrottleTimeMs := x }) .int32 (fun _ => rfl) (fun _ => rfl) (fun _ _ => rfl) (fun _ _ => rfl) (fun _ _ => rfl) : RewriteStep _ (AlterReplicaLogDirsResponse.first 0) (AlterReplicaLogDirsResponse.first 1) _ _)
    |>.andThen (.structs (get := fun (t : AlterReplicaLogDirsResponse) => t.Results) (set := fun (t : AlterReplicaLogDirsResponse) x => { t with Results := x }) (AlterReplicaLogDirTopicResult34.rewrites version) (fun _ => rfl) (fun _ => rfl) (fun _ => rfl) (fun _ _ => rfl) (fun _ _ => rfl) (fun _ _ => rfl) : RewriteStep _ (AlterReplicaLogDirsResponse.first 1) (AlterReplicaLogDirsResponse.first 2) _ _)).whole {} rfl (fun _ => rfl) (fun _ h => ⟨h.2⟩)

theorem rewritesAlterReplicaLogDirs : ∀ p ∈ typesAlterReplicaLogDirs, ∀ v, Rewrites (p.1.decode v p.1.zero) (p.2.wire v) (p.2.Fits v) := by
  unfold typesAlterReplicaLogDirs
  simp only [List.forall_mem_cons]
  exact ⟨AlterReplicaLogDirsRequest.rewrites, AlterReplicaLogDir34.rewrites, AlterReplicaLogDirTopic34.rewrites, AlterReplicaLogDirsResponse.rewrites, AlterReplicaLogDirTopicResult34.rewrites, AlterReplicaLogDirPartitionResult34.rewrites, fun _ h => absurd h (by simp)⟩

end Kafka.Msg
