import Verif.Message.Rewrites
import Verif.Gen.Kept.StopReplica
import Verif.Gen.All
/-!
Generated by tools/gen_messages.py: encoding StopReplica messages that were decoded.
-/
namespace Kafka.Msg

theorem StopReplicaPartitionV05.rewrites (version : Int16) : Rewrites (StopReplicaPartitionV05.decode version {}) (StopReplicaPartitionV05.wire version) (StopReplicaPartitionV05.Fits version) :=
  ((.onlyIf (g := version ≥ 0 ∧ version ≤ 0) (.field (get := fun (t : StopReplicaPartitionV05) => t.TopicName) (set := fun (t : StopReplicaPartitionV05) x => { t with TopicName := x }) .string (fun _ => rfl) (fun _ => rfl) (fun _ _ => rfl) (fun _ _ => rfl) (fun _ _ => rfl)) (fun _ => rfl) : RewriteStep _ (StopReplicaPartitionV05.first 0) (StopReplicaPartitionV05.first 1) _ _)
    |>.andThen (.onlyIf (g := version ≥ 0 ∧ version ≤ 0) (.field (get := fun (t : StopReplicaPartitionV05) => t.PartitionIndex) (set := fun (t : StopReplicaPartitionV05) x => { t with PartitionIndex := x }) .int32 (fun _ => rfl) (fun _ => rfl) (fun _ _ => rfl) (fun _ _ => rfl) (fun _ _ => rfl)) (fun _ => rfl) : RewriteStep _ (StopReplicaPartitionV05.first 1) (StopReplicaPartitionV05.first 2) _ _)).whole {} rfl (fun _ => rfl) (fun _ h => ⟨h.1⟩)

theorem StopReplicaTopic5.rewrites (version : Int16) : Rewrites (StopReplicaTopic5.decode version {}) (StopReplicaTopic5.wire version) (StopReplicaTopic5.Fits version) :=
  ((.onlyIf (g := version ≥ 1) (.field (get := fun (t : StopReplicaTopic5) => t.Name) (set := fun (t : StopReplicaTopic5) x => { t with Name := x }) .string (fun _ => rfl) (fun _ => rfl) (fun _ _ => rfl) (fun _ _ => rfl) (fun _ _ => rfl)) (fun _ => rfl) : RewriteStep _ (StopReplicaTopic5.first 0) (StopReplicaTopic5.first 1) _ _)
    |>.andThen (.onlyIf (g := version ≥ 1) (.field (get := fun (t : StopReplicaTopic5) => t.PartitionIndexes) (set := fun (t : StopReplicaTopic5) x => { t with PartitionIndexes := x }) .int32Array (fun _ => rfl) (fun _ => rfl) (fun _ _ => rfl) (fun _ _ => rfl) (fun _ _ => rfl)) (fun _ => rfl) : RewriteStep _ (StopReplicaTopic5.first 1) (StopReplicaTopic5.first 2) _ _)).whole {} rfl (fun _ => rfl) (fun _ h => ⟨h.1, h.2⟩)

theorem StopReplicaRequest.rewrites (version : Int16) : Rewrites (StopReplicaRequest.decode version {}) (StopReplicaRequest.wire version) (StopReplicaRequest.Fits version) :=
  ((.field (get := fun (t : StopReplicaRequest) => t.ControllerId) (set := fun (t : StopReplicaRequest) x => { t with ControllerId := x }) .int32 (fun _ => rfl) (fun _ => rfl) (fun _ _ => rfl) (fun _ _ => rfl) (fun _ _ => rfl) : RewriteStep _ (StopReplicaRequest.first 0) (StopReplicaRequest.first 1) _ _)
    |>.andThen (.field (get := fun (t : StopReplicaRequest) => t.ControllerEpoch) (set := fun (t : StopReplicaRequest) x => { t with ControllerEpoch := x }) .int32 (fun _ => rfl) (fun _ => rfl) (fun _ _ => rfl) (fun _ _ => rfl) (fun _ _ => rfl) : RewriteStep _ (StopReplicaRequest.first 1) (StopReplicaRequest.first 2) _ _)
    |>.andThen (.onlyIf (g := version ≥ 1) (.field (get := fun (t : StopReplicaRequest) => t.BrokerEpoch) (set := fun (t : StopReplicaRequest) x => { t with BrokerEpoch := x }) .int64 (fun _ => rfl) (fun _ => rfl) (fun _ _ => rfl) (fun _ _ => rfl) (fun _ _ => rfl)) (fun _ => rfl) : RewriteStep _ (StopReplicaRequest.first 2) (StopReplicaRequest.first 3) _ _)
    |>.andThen (.field (get := fun (t : StopReplicaRequest) => t.DeletePartitions) (set := fun (t : StopReplicaRequest) x => { t with DeletePartitions := x }) .bool (fun _ => rfl) (fun _ => rfl) (fun _ _ => rfl) (fun _ _ => rfl) (fun _ _ => rfl) : RewriteStep _ (StopReplicaRequest.first 3) (StopReplicaRequest.first 4) _ _)
    |>.andThen (.onlyIf (g := version ≥ 0 ∧ version ≤ 0) (.structs (get := fun (t : StopReplicaRequest) => t.UngroupedPartitions) (set := fun (t : StopReplicaRequest) x => { t with UngroupedPartitions := x }) (StopReplicaPartitionV05.rewrites version) (fun _ => rfl) (fun _ => rfl) (fun _ => rfl) (fun _ _ => rfl) (fun _ _ => rfl) (fun _ _ => rfl)) (fun _ => rfl) : RewriteStep _ (StopReplicaRequest.first 4) (StopReplicaRequest.first 5) _ _)
    |>.andThen (.onlyIf (g := version ≥ 1) (.structs (get := fun (t : StopReplicaRequest) => t.Topics) (set := fun (t : StopReplicaRequest) x => { t with Topics := x }) (StopReplicaTopic5.rewrites version) (fun _ => rfl) (fun _ => rfl) (fun _ => rfl) (fun _ _ => rfl) (fun _ _ => rfl) (fun _ _ => rfl)) (fun _ => rfl) : RewriteStep _ (StopReplicaRequest.first 5) (StopReplicaRequest.first 6) _ _)).whole {} rfl (fun _ => rfl) (fun _ h => ⟨h.1.2, h.2⟩)

theorem StopReplicaPartitionError5.rewrites (version : Int16) : Rewrites (StopReplicaPartitionError5.decode version {}) (StopReplicaPartitionError5.wire version) (StopReplicaPartitionError5.Fits version) :=
  ((.field (get := fun (t : StopReplicaPartitionError5) => t.TopicName) (set := fun (t : StopReplicaPartitionError5) x => { t with TopicName := x }) .string (fun _ => rfl) (fun _ => rfl) (fun _ _ => rfl) (fun _ _ => rfl) (fun _ _ => rfl) : RewriteStep _ (StopReplicaPartitionError5.first 0) (StopReplicaPartitionError5.first 1) _ _)
    |>.andThen (.field (get := fun (t : StopReplicaPartitionError5) => t.PartitionIndex) (set := fun (t : StopReplicaPartitionError5) x => { t with PartitionIndex := x }) .int32 (fun _ => rfl) (fun _ => rfl) (fun _ _ => rfl) (fun _ _ => rfl) (fun _ _ => rfl) : RewriteStep _ (StopReplicaPartitionError5.first 1) (StopReplicaPartitionError5.first 2) _ _)
    |>.andThen (.field (get := fun (t : StopReplicaPartitionError5) => t.ErrorCode) (set := fun (t : StopReplicaPartitionError5) x => { t with ErrorCode := x }) .int16 (fun _ => rfl) (fun _ => rfl) (fun _ _ => rfl) (fun _ _ => rfl) (fun _ _ => rfl) : RewriteStep _ (StopReplicaPartitionError5.first 2) (StopReplicaPartitionError5.first 3) _ _)).whole {} rfl (fun _ => rfl) (fun _ h => ⟨h.1.1⟩)

theorem StopReplicaResponse.rewrites (version : Int16) : Rewrites (StopReplicaResponse.decode version {}) (StopReplicaResponse.wire version) (StopReplicaResponse.Fits version) :=
  ((.field (get := fun (t : StopReplicaResponse) => t.ErrorCode) (set := fun (t : StopReplicaResponse) x => { t with ErrorCode := x }) .int16 (fun _ => rfl) (fun _ => rfl) (fun _ _ => rfl) (fun _ _ => rfl) (fun _ _ => rfl) : RewriteStep _ (StopReplicaResponse.first 0) (StopReplicaResponse.first 1) _ _)
    |>.andThen (.structs (get := fun (t : StopReplicaResponse) => t.PartitionErrors) (set := fun (t : StopReplicaResponse) x => { t with PartitionErrors := x }) (StopReplicaPartitionError5.rewrites version) (fun _ => rfl) (fun _ => rfl) (fun _ => rfl) (fun _ _ => rfl) (fun _ _ => rfl) (fun _ _ => rfl) : RewriteStep _ (StopReplicaResponse.first 1) (StopReplicaResponse.first 2) _ _)).whole {} rfl (fun _ => rfl) (fun _ h => ⟨h.2⟩)

theorem rewritesStopReplica : ∀ p ∈ typesStopReplica, ∀ v, Rewrites (p.1.decode v p.1.zero) (p.2.wire v) (p.2.Fits v) := by
  unfold typesStopReplica
  simp only [List.forall_mem_cons]
  exact ⟨StopReplicaRequest.rewrites, StopReplicaPartitionV05.rewrites, StopReplicaTopic5.rewrites, StopReplicaResponse.rewrites, StopReplicaPartitionError5.rewrites, fun _ h => absurd h (by simp)⟩

end Kafka.Msg
