import Verif.Message.Rewrites
import Verif.Gen.Kept.OffsetFetch
import Verif.Gen.All
/-!
Generated by tools/gen_messages.py: encoding OffsetFetch messages that were decoded.
-/
namespace Kafka.Msg

theorem OffsetFetchRequestTopic9.rewrites (version : Int16) : Rewrites (OffsetFetchRequestTopic9.decode version {}) (OffsetFetchRequestTopic9.wire version) (OffsetFetchRequestTopic9.Fits version) :=
  ((.field (get := fun (t : OffsetFetchRequestTopic9) => t.Name) (set := fun (t : OffsetFetchRequestTopic9) x => { t with Name := x }) .string (fun _ => rfl) (fun _ => rfl) (fun _ _ => rfl) (fun _ _ => rfl) (fun _ _ => rfl) : RewriteStep _ (OffsetFetchRequestTopic9.first 0) (OffsetFetchRequestTopic9.first 1) _ _)
    |>.andThen (.field (get := fun (t : OffsetFetchRequestTopic9) => t.PartitionIndexes) (set := fun (t : OffsetFetchRequestTopic9) x => { t with PartitionIndexes := x }) .int32Array (fun _ => rfl) (fun _ => rfl) (fun _ _ => rfl) (fun _ _ => rfl) (fun _ _ => rfl) : RewriteStep _ (OffsetFetchRequestTopic9.first 1) (OffsetFetchRequestTopic9.first 2) _ _)).whole {} rfl (fun _ => rfl) (fun _ h => ⟨h.1, h.2⟩)

theorem OffsetFetchRequest.rewrites (version : Int16) : Rewrites (OffsetFetchRequest.decode version {}) (OffsetFetchRequest.wire version) (OffsetFetchRequest.Fits version) :=
  ((.field (get := fun (t : OffsetFetchRequest) => t.GroupId) (set := fun (t : OffsetFetchRequest) x => { t with GroupId := x }) .string (fun _ => rfl) (fun _ => rfl) (fun _ _ => rfl) (fun _ _ => rfl) (fun _ _ => rfl) : RewriteStep _ (OffsetFetchRequest.first 0) (OffsetFetchRequest.first 1) _ _)
    |>.andThen (.structs (get := fun (t : OffsetFetchRequest) => t.Topics) (set := fun (t : OffsetFetchRequest) x => { t with Topics := x }) (OffsetFetchRequestTopic9.rewrites version) (fun _ => rfl) (fun _ => rfl) (fun _ => rfl) (fun _ _ => rfl) (fun _ _ => rfl) (fun _ _ => rfl) : RewriteStep _ (OffsetFetchRequest.first 1) (OffsetFetchRequest.first 2) _ _)).whole {} rfl (fun _ => rfl) (fun _ h => ⟨h.1, h.2⟩)

theorem OffsetFetchResponsePartition9.rewrites (version : Int16) : Rewrites (OffsetFetchResponsePartition9.decode version {}) (OffsetFetchResponsePartition9.wire version) (OffsetFetchResponsePartition9.Fits version) :=
  ((.field (get := fun (t : OffsetFetchResponsePartition9) => t.PartitionIndex) (set := fun (t : OffsetFetchResponsePartition9) x => { t with PartitionIndex := x }) .int32 (fun _ => rfl) (fun _ => rfl) (fun _ _ => rfl) (fun _ _ => rfl) (fun _ _ => rfl) : RewriteStep _ (OffsetFetchResponsePartition9.first 0) (OffsetFetchResponsePartition9.first 1) _ _)
    |>.andThen (.field (get := fun (t : OffsetFetchResponsePartition9) => t.CommittedOffset) (set := fun (t : OffsetFetchResponsePartition9) x => { t with CommittedOffset := x }) .int64 (fun _ => rfl) (fun _ => rfl) (fun _ _ => rfl) (fun _ _ => rfl) (fun _ _ => rfl) : RewriteStep _ (OffsetFetchResponsePartition9.first 1) (OffsetFetchResponsePartition9.first 2) _ _)
    |>.andThen (.onlyIf (g := version ≥ 5) (.field (get := fun (t : OffsetFetchResponsePartition9) => t.CommittedLeaderEpoch) (set := fun (t : OffsetFetchResponsePartition9) x => { t with CommittedLeaderEpoch := x }) .int32 (fun _ => rfl) (fun _ => rfl) (fun _ _ => rfl) (fun _ _ => rfl) (fun _ _ => rfl)) (fun _ => rfl) : RewriteStep _ (OffsetFetchResponsePartition9.first 2) (OffsetFetchResponsePartition9.first 3) _ _)
    |>.andThen (.field (get := fun (t : OffsetFetchResponsePartition9) => t.Metadata) (set := fun (t : OffsetFetchResponsePartition9) x => { t with Metadata := x }) .string (fun _ => rfl) (fun _ => rfl) (fun _ _ => rfl) (fun _ _ => rfl) (fun _ _ => rfl) : RewriteStep _ (OffsetFetchResponsePartition9.first 3) (OffsetFetchResponsePartition9.first 4) _ _)
    |>.andThen (.field (get := fun (t : OffsetFetchResponsePartition9) => t.ErrorCode) (set := fun (t : OffsetFetchResponsePartition9) x => { t with ErrorCode := x }) .int16 (fun _ => rfl) (fun _ => rfl) (fun _ _ => rfl) (fun _ _ => rfl) (fun _ _ => rfl) : RewriteStep _ (OffsetFetchResponsePartition9.first 4) (OffsetFetchResponsePartition9.first 5) _ _)).whole {} rfl (fun _ => rfl) (fun _ h => ⟨h.1.2⟩)

theorem OffsetFetchResponseTopic9.rewrites (version : Int16) : Rewrites (OffsetFetchResponseTopic9.decode version {}) (OffsetFetchResponseTopic9.wire version) (OffsetFetchResponseTopic9.Fits version) :=
  ((.field (get := fun (t : OffsetFetchResponseTopic9) => t.Name) (set := fun (t : OffsetFetchResponseTopic9) x => { t with Name := x }) .string (fun _ => rfl) (fun _ => rfl) (fun _ _ => rfl) (fun _ _ => rfl) (fun _ _ => rfl) : RewriteStep _ (OffsetFetchResponseTopic9.first 0) (OffsetFetchResponseTopic9.first 1) _ _)
    |>.andThen (.structs (get := fun (t : OffsetFetchResponseTopic9) => t.Partitions) (set := fun (t : OffsetFetchResponseTopic9) x => { t with Partitions := x }) (OffsetFetchResponsePartition9.rewrites version) (fun _ => rfl) (fun _ => rfl) (fun _ => rfl) (fun _ _ => rfl) (fun _ _ => rfl) (fun _ _ => rfl) : RewriteStep _ (OffsetFetchResponseTopic9.first 1) (OffsetFetchResponseTopic9.first 2) _ _)).whole {} rfl (fun _ => rfl) (fun _ h => ⟨h.1, h.2⟩)

theorem OffsetFetchResponse.rewrites (version : Int16) : Rewrites (OffsetFetchResponse.decode version {}) (OffsetFetchResponse.wire version) (OffsetFetchResponse.Fits version) :=
  ((.onlyIf (g := version ≥ 3) (.field (get := fun (t : OffsetFetchResponse) => t.ThrottleTimeMs) (set := fun (t : OffsetFetchResponse) x => { t with ThrottleTimeMs := x }) .int32 (fun _ => rfl) (fun _ => rfl) (fun _ _ => rfl) (fun _ _ => rfl) (fun _ _ => rfl)) (fun _ => rfl) : RewriteStep _ (OffsetFetchResponse.first 0) (OffsetFetchResponse.first 1) _ _)
    |>.andThen (.structs (get := fun (t : OffsetFetchResponse) => t.Topics) (set := fun (t : OffsetFetchResponse) x => { t with Topics := x }) (OffsetFetchResponseTopic9.rewrites version) (fun _ => rfl) (fun _ => rfl) (fun _ => rfl) (fun _ _ => rfl) (fun _ _ => rfl) (fun _ _ => rfl) : RewriteStep _ (OffsetFetchResponse.first 1) (OffsetFetchResponse.first 2) _ _)
    |>.andThen (.onlyIf (g := version ≥ 2) (.field (get := fun (t : OffsetFetchResponse) => t.ErrorCode) (set := fun (t : OffsetFetchResponse) x => { t with ErrorCode := x }) .int16 (fun _ => rfl) (fun _ => rfl) (fun _ _ => rfl) (fun _ _ => rfl) (fun _ _ => rfl)) (fun _ => rfl) : RewriteStep _ (OffsetFetchResponse.first 2) (OffsetFetchResponse.first 3) _ _)).whole {} rfl (fun _ => rfl) (fun _ h => ⟨h.1.2⟩)

theorem rewritesOffsetFetch : ∀ p ∈ typesOffsetFetch, ∀ v, Rewrites (p.1.decode v p.1.zero) (p.2.wire v) (p.2.Fits v) := by
  unfold typesOffsetFetch
  simp only [List.forall_mem_cons]
  exact ⟨OffsetFetchRequest.rewrites, OffsetFetchRequestTopic9.rewrites, OffsetFetchResponse.rewrites, OffsetFetchResponseTopic9.rewrites, OffsetFetchResponsePartition9.rewrites, fun _ h => absurd h (by simp)⟩

end Kafka.Msg
