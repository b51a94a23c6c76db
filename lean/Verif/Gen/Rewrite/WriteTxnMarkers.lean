import Verif.Message.Rewrites
import Verif.Gen.Kept.WriteTxnMarkers
import Verif.Gen.All
/-!
Generated by tools/gen_messages.py: encoding WriteTxnMarkers messages that were decoded.
-/
namespace Kafka.Msg

theorem WritableTxnMarkerTopic27.rewrites (version : Int16) : Rewrites (WritableTxnMarkerTopic27.decode version {}) (WritableTxnMarkerTopic27.wire version) (WritableTxnMarkerTopic27.Fits version) :=
  ((.field (get := fun (t : WritableTxnMarkerTopic27) => t.Name) (set := fun (t : WritableTxnMarkerTopic27) x => { t with Name := x }) .string (fun _ => rfl) (fun _ => rfl) (fun _ _ => rfl) (fun _ _ => rfl) (fun _ _ => rfl) : RewriteStep _ (WritableTxnMarkerTopic27.first 0) (WritableTxnMarkerTopic27.first 1) _ _)
    |>.andThen (.field (get := fun (t : WritableTxnMarkerTopic27) => t.PartitionIndexes) (set := fun (t : WritableTxnMarkerTopic27) x => { t with PartitionIndexes := x }) .int32Array (fun _ => rfl) (fun _ => rfl) (fun _ _ => rfl) (fun _ _ => rfl) (fun _ _ => rfl) : RewriteStep _ (WritableTxnMarkerTopic27.first 1) (WritableTxnMarkerTopic27.first 2) _ _)).whole {} rfl (fun _ => rfl) (fun _ h => ⟨h.1, h.2⟩)

theorem WritableTxnMarker27.rewrites (version : Int16) : Rewrites (WritableTxnMarker27.decode version {}) (WritableTxnMarker27.wire version) (WritableTxnMarker27.Fits version) :=
  ((.field (get := fun (t : WritableTxnMarker27) => t.ProducerId) (set := fun (t : WritableTxnMarker27) x => { t with ProducerId := x }) .int64 (fun _ => rfl) (fun _ => rfl) (fun _ _ => rfl) (fun _ _ => rfl) (fun _ _ => rfl) : RewriteStep _ (WritableTxnMarker27.first 0) (WritableTxnMarker27.first 1) _ _)
    |>.andThen (.field (get := fun (t : WritableTxnMarker27) => t.ProducerEpoch) (set := fun (t : WritableTxnMarker27) x => { t with ProducerEpoch := x }) .int16 (fun _ => rfl) (fun _ => rfl) (fun _ _ => rfl) (fun _ _ => rfl) (fun _ _ => rfl) : RewriteStep _ (WritableTxnMarker27.first 1) (WritableTxnMarker27.first 2) _ _)
    |>.andThen (.field (get := fun (t : WritableTxnMarker27) => t.TransactionResult) (set := fun (t : WritableTxnMarker27) x => { t with TransactionResult := x }) .bool (fun _ => rfl) (fun _ => rfl) (fun _ _ => rfl) (fun _ _ => rfl) (fun _ _ => rfl) : RewriteStep _ (WritableTxnMarker27.first 2) (WritableTxnMarker27.first 3) _ _)
    |>.andThen (.structs (get := fun (t : WritableTxnMarker27) => t.Topics) (set := fun (t : WritableTxnMarker27) x => { t with Topics := x }) (WritableTxnMarkerTopic27.rewrites version) (fun _ => rfl) (fun _ => rfl) (fun _ => rfl) (fun _ _ => rfl) (fun _ _ => rfl) (fun _ _ => rfl) : RewriteStep _ (WritableTxnMarker27.first 3) (WritableTxnMarker27.first 4) _ _)
    |>.andThen (.field (get := fun (t : WritableTxnMarker27) => t.CoordinatorEpoch) (set := fun (t : WritableTxnMarker27) x => { t with CoordinatorEpoch := x }) .int32 (fun _ => rfl) (fun _ => rfl) (fun _ _ => rfl) (fun _ _ => rfl) (fun _ _ => rfl) : RewriteStep _ (WritableTxnMarker27.first 4) (WritableTxnMarker27.first 5) _ _)).whole {} rfl (fun _ => rfl) (fun _ h => ⟨h.1.2⟩)

theorem WriteTxnMarkersRequest.rewrites (version : Int16) : Rewrites (WriteTxnMarkersRequest.decode version {}) (WriteTxnMarkersRequest.wire version) (WriteTxnMarkersRequest.Fits version) :=
  ((.structs (get := fun (t : WriteTxnMarkersRequest) => t.Markers) (set := fun (t : WriteTxnMarkersRequest) x => { t with Markers := x }) (WritableTxnMarker27.rewrites version) (fun _ => rfl) (fun _ => rfl) (fun _ => rfl) (fun _ _ => rfl) (fun _ _ => rfl) (fun _ _ => rfl) : RewriteStep _ (WriteTxnMarkersRequest.first 0) (WriteTxnMarkersRequest.first 1) _ _)).whole {} rfl (fun _ => rfl) (fun _ h => ⟨h⟩)

theorem WritableTxnMarkerPartitionResult27.rewrites (version : Int16) : Rewrites (WritableTxnMarkerPartitionResult27.decode version {}) (WritableTxnMarkerPartitionResult27.wire version) (WritableTxnMarkerPartitionResult27.Fits version) :=
  ((.field (get := fun (t : WritableTxnMarkerPartitionResult27) => t.PartitionIndex) (set := fun (t : WritableTxnMarkerPartitionResult27) x => { t with PartitionIndex := x }) .int32 (fun _ => rfl) (fun _ => rfl) (fun _ _ => rfl) (fun _ _ => rfl) (fun _ _ => rfl) : RewriteStep _ (WritableTxnMarkerPartitionResult27.first 0) (WritableTxnMarkerPartitionResult27.first 1) _ _)
    |>.andThen (.field (get := fun (t : WritableTxnMarkerPartitionResult27) => t.ErrorCode) (set := fun (t : WritableTxnMarkerPartitionResult27) x => { t with ErrorCode := x }) .int16 (fun _ => rfl) (fun _ => rfl) (fun _ _ => rfl) (fun _ _ => rfl) (fun _ _ => rfl) : RewriteStep _ (WritableTxnMarkerPartitionResult27.first 1) (WritableTxnMarkerPartitionResult27.first 2) _ _)).whole {} rfl (fun _ => rfl) (fun _ _ => trivial)

theorem WritableTxnMarkerTopicResult27.rewrites (version : Int16) : Rewrites (WritableTxnMarkerTopicResult27.decode version {}) (WritableTxnMarkerTopicResult27.wire version) (WritableTxnMarkerTopicResult27.Fits version) :=
  ((.field (get := fun (t : WritableTxnMarkerTopicResult27) => t.Name) (set := fun (t : WritableTxnMarkerTopicResult27) x => { t with Name := x }) .string (fun _ => rfl) (fun _ => rfl) (fun _ _ => rfl) (fun _ _ => rfl) (fun _ _ => rfl) : RewriteStep _ (WritableTxnMarkerTopicResult27.first 0) (WritableTxnMarkerTopicResult27.first 1) _ _)
    |>.andThen (.structs (get := fun (t : WritableTxnMarkerTopicResult27) => t.Partitions) (set := fun (t : WritableTxnMarkerTopicResult27) x => { t with Partitions := x }) (WritableTxnMarkerPartitionResult27.rewrites version) (fun _ => rfl) (fun _ => rfl) (fun _ => rfl) (fun _ _ => rfl) (fun _ _ => rfl) (fun _ _ => rfl) : RewriteStep _ (WritableTxnMarkerTopicResult27.first 1) (WritableTxnMarkerTopicResult27.first 2) _ _)).whole {} rfl (fun _ => rfl) (fun _ h => ⟨h.1, h.2⟩)

theorem WritableTxnMarkerResult27.rewrites (version : Int16) : Rewrites (WritableTxnMarkerResult27.decode version {}) (WritableTxnMarkerResult27.wire version) (WritableTxnMarkerResult27.Fits version) :=
  ((.field (get := fun (t : WritableTxnMarkerResult27) => t.ProducerId) (set := fun (t : WritableTxnMarkerResult27) x => { t with ProducerId := x }) .int64 (fun _ => rfl) (fun _ => rfl) (fun _ _ => rfl) (fun _ _ => rfl) (fun _ _ => rfl) : RewriteStep _ (WritableTxnMarkerResult27.first 0) (WritableTxnMarkerResult27.first 1) _ _)
    |>.andThen (.structs (get := fun (t : WritableTxnMarkerResult27) => t.Topics) (set := fun (t : WritableTxnMarkerResult27) x => { t with Topics := x }) (WritableTxnMarkerTopicResult27.rewrites version) (fun _ => rfl) (fun _ => rfl) (fun _ => rfl) (fun _ _ => rfl) (fun _ _ => rfl) (fun _ _ => rfl) : RewriteStep _ (WritableTxnMarkerResult27.first 1) (WritableTxnMarkerResult27.first 2) _ _)).whole {} rfl (fun _ => rfl) (fun _ h => ⟨h.2⟩)

theorem WriteTxnMarkersResponse.rewrites (version : Int16) : Rewrites (WriteTxnMarkersResponse.decode version {}) (WriteTxnMarkersResponse.wire version) (WriteTxnMarkersResponse.Fits version) :=
  ((.structs (get := fun (t : WriteTxnMarkersResponse) => t.Markers) (set := fun (t : WriteTxnMarkersResponse) x => { t with Markers := x }) (WritableTxnMarkerResult27.rewrites version) (fun _ => rfl) (fun _ => rfl) (fun _ => rfl) (fun _ _ => rfl) (fun _ _ => rfl) (fun _ _ => rfl) : RewriteStep _ (WriteTxnMarkersResponse.first 0) (WriteTxnMarkersResponse.first 1) _ _)).whole {} rfl (fun _ => rfl) (fun _ h => ⟨h⟩)

theorem rewritesWriteTxnMarkers : ∀ p ∈ typesWriteTxnMarkers, ∀ v, Rewrites (p.1.decode v p.1.zero) (p.2.wire v) (p.2.Fits v) := by
  unfold typesWriteTxnMarkers
  simp only [List.forall_mem_cons]
  exact ⟨WriteTxnMarkersRequest.rewrites, WritableTxnMarker27.rewrites, WritableTxnMarkerTopic27.rewrites, WriteTxnMarkersResponse.rewrites, WritableTxnMarkerResult27.rewrites, WritableTxnMarkerTopicResult27.rewrites, WritableTxnMarkerPartitionResult27.rewrites, fun _ h => absurd h (by simp)⟩

end Kafka.Msg
