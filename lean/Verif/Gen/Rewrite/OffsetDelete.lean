import Verif.Message.Rewrites
import Verif.Gen.Kept.OffsetDelete
import Verif.Gen.All
/-!
Generated by tools/gen_messages.py: encoding OffsetDelete messages that were decoded.
-/
namespace Kafka.Msg

theorem OffsetDeleteRequestPartition47.rewrites (version : Int16) : Rewrites (OffsetDeleteRequestPartition47.decode version {}) (OffsetDeleteRequestPartition47.wire version) (OffsetDeleteRequestPartition47.Fits version) :=
  ((.field (get := fun (t : OffsetDeleteRequestPartition47) => t.PartitionIndex) (set := fun (t : OffsetDeleteRequestPartition47) x => { t with PartitionIndex := x }) .int32 (fun _ => rfl) (fun _ => rfl) (fun _ _ => rfl) (fun _ _ => rfl) (fun _ _ => rfl) : RewriteStep _ (OffsetDeleteRequestPartition47.first 0) (OffsetDeleteRequestPartition47.first 1) _ _)).whole {} rfl (fun _ => rfl) (fun _ _ => trivial)

theorem OffsetDeleteRequestTopic47.rewrites (version : Int16) : Rewrites (OffsetDeleteRequestTopic47.decode version {}) (OffsetDeleteRequestTopic47.wire version) (OffsetDeleteRequestTopic47.Fits version) :=
  ((.field (get := fun (t : OffsetDeleteRequestTopic47) => t.Name) (set := fun (t : OffsetDeleteRequestTopic47) x => { t with Name := x }) .string (fun _ => rfl) (fun _ => rfl) (fun _ _ => rfl) (fun _ _ => rfl) (fun _ _ => rfl) : RewriteStep _ (OffsetDeleteRequestTopic47.first 0) (OffsetDeleteRequestTopic47.first 1) _ _)
    |>.andThen (.structs (get := fun (t : OffsetDeleteRequestTopic47) => t.Partitions) (set := fun (t : OffsetDeleteRequestTopic47) x => { t with Partitions := x }) (OffsetDeleteRequestPartition47.rewrites version) (fun _ => rfl) (fun _ => rfl) (fun _ => rfl) (fun _ _ => rfl) (fun _ _ => rfl) (fun _ _ => rfl) : RewriteStep _ (OffsetDeleteRequestTopic47.first 1) (OffsetDeleteRequestTopic47.first 2) _ _)).whole {} rfl (fun _ => rfl) (fun _ h => ⟨h.1, h.2⟩)

theorem OffsetDeleteRequest.rewrites (version : Int16) : Rewrites (OffsetDeleteRequest.decode version {}) (OffsetDeleteRequest.wire version) (OffsetDeleteRequest.Fits version) :=
  ((.field (get := fun (t : OffsetDeleteRequest) => t.GroupId) (set := fun (t : OffsetDeleteRequest) x => { t with GroupId := x }) .string (fun _ => rfl) (fun _ => rfl) (fun _ _ => rfl) (fun _ _ => rfl) (fun _ _ => rfl) : RewriteStep _ (OffsetDeleteRequest.first 0) (OffsetDeleteRequest.first 1) _ _)
    |>.andThen (.structs (get := fun (t : OffsetDeleteRequest) => t.Topics) (set := fun (t : OffsetDeleteRequest) x => { t with Topics := x }) (OffsetDeleteRequestTopic47.rewrites version) (fun _ => rfl) (fun _ => rfl) (fun _ => rfl) (fun _ _ => rfl) (fun _ _ => rfl) (fun _ _ => rfl) : RewriteStep _ (OffsetDeleteRequest.first 1) (OffsetDeleteRequest.first 2) _ _)).whole {} rfl (fun _ => rfl) (fun _ h => ⟨h.1, h.2⟩)

theorem OffsetDeleteResponsePartition47.rewrites (version : Int16) : Rewrites (OffsetDeleteResponsePartition47.decode version {}) (OffsetDeleteResponsePartition47.wire version) (OffsetDeleteResponsePartition47.Fits version) :=
  ((.field (get := fun (t : OffsetDeleteResponsePartition47) => t.PartitionIndex) (set := fun (t : OffsetDeleteResponsePartition47) x => { t with PartitionIndex := x }) .int32 (fun _ => rfl) (fun _ => rfl) (fun _ _ => rfl) (fun _ _ => rfl) (fun _ _ => rfl) : RewriteStep _ (OffsetDeleteResponsePartition47.first 0) (OffsetDeleteResponsePartition47.first 1) _ _)
    |>.andThen (.field (get := fun (t : OffsetDeleteResponsePartition47) => t.ErrorCode) (set := fun (t : OffsetDeleteResponsePartition47) x => { t with ErrorCode := x }) .int16 (fun _ => rfl) (fun _ => rfl) (fun _ _ => rfl) (fun _ _ => rfl) (fun _ _ => rfl) : RewriteStep _ (OffsetDeleteResponsePartition47.first 1) (OffsetDeleteResponsePartition47.first 2) _ _)).whole {} rfl (fun _ => rfl) (fun _ _ => trivial)

theorem OffsetDeleteResponseTopic47.rewrites (version : Int16) : Rewrites (OffsetDeleteResponseTopic47.decode version {}) (OffsetDeleteResponseTopic47.wire version) (OffsetDeleteResponseTopic47.Fits version) :=
  ((.field (get := fun (t : OffsetDeleteResponseTopic47) => t.Name) (set := fun (t : OffsetDeleteResponseTopic47) x => { t with Name := x }) .string (fun _ => rfl) (fun _ => rfl) (fun _ _ => rfl) (fun _ _ => rfl) (fun _ _ => rfl) : RewriteStep _ (OffsetDeleteResponseTopic47.first 0) (OffsetDeleteResponseTopic47.first 1) _ _)
    |>.andThen (.structs (get := fun (t : OffsetDeleteResponseTopic47) => t.Partitions) (set := fun (t : OffsetDeleteResponseTopic47) x => { t with Partitions := x }) (OffsetDeleteResponsePartition47.rewrites version) (fun _ => rfl) (fun _ => rfl) (fun _ => rfl) (fun _ _ => rfl) (fun _ _ => rfl) (fun _ _ => rfl) : RewriteStep _ (OffsetDeleteResponseTopic47.first 1) (OffsetDeleteResponseTopic47.first 2) _ _)).whole {} rfl (fun _ => rfl) (fun _ h => ⟨h.1, h.2⟩)

theorem OffsetDeleteResponse.rewrites (version : Int16) : Rewrites (OffsetDeleteResponse.decode version {}) (OffsetDeleteResponse.wire version) (OffsetDeleteResponse.Fits version) :=
  ((.field (get := fun (t : OffsetDeleteResponse) => t.ErrorCode) (set := fun (t : OffsetDeleteResponse) x => { t with ErrorCode := x }) .int16 (fun _ => rfl) (fun _ => rfl) (fun _ _ => rfl) (fun _ _ => rfl) (fun _ _ => rfl) : RewriteStep _ (OffsetDeleteResponse.first 0) (OffsetDeleteResponse.first 1) _ _)
    |>.andThen (.field (get := fun (t : OffsetDeleteResponse) => t.ThrottleTimeMs) (set := fun (t : OffsetDeleteResponse) x => { t with ThrottleTimeMs := x }) .int32 (fun _ => rfl) (fun _ => rfl) (fun _ _ => rfl) (fun _ _ => rfl) (fun _ _ => rfl) : RewriteStep _ (OffsetDeleteResponse.first 1) (OffsetDeleteResponse.first 2) _ _)
    |>.andThen (.structs (get := fun (t : OffsetDeleteResponse) => t.Topics) (set := fun (t : OffsetDeleteResponse) x => { t with Topics := x }) (OffsetDeleteResponseTopic47.rewrites version) (fun _ => rfl) (fun _ => rfl) (fun _ => rfl) (fun _ _ => rfl) (fun _ _ => rfl) (fun _ _ => rfl) : RewriteStep _ (OffsetDeleteResponse.first 2) (OffsetDeleteResponse.first 3) _ _)).whole {} rfl (fun _ => rfl) (fun _ h => ⟨h.2⟩)

theorem rewritesOffsetDelete : ∀ p ∈ typesOffsetDelete, ∀ v, Rewrites (p.1.decode v p.1.zero) (p.2.wire v) (p.2.Fits v) := by
  unfold typesOffsetDelete
  simp only [List.forall_mem_cons]
  exact ⟨OffsetDeleteRequest.rewrites, OffsetDeleteRequestTopic47.rewrites, OffsetDeleteRequestPartition47.rewrites, OffsetDeleteResponse.rewrites, OffsetDeleteResponseTopic47.rewrites, OffsetDeleteResponsePartition47.rewrites, fun _ h => absurd h (by simp)⟩

end Kafka.Msg
