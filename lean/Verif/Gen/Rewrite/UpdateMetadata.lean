import Verif.Message.Rewrites
import Verif.Gen.Kept.UpdateMetadata
import Verif.Gen.All
/-!
Generated by tools/gen_messages.py: encoding UpdateMetadata messages that were decoded.
-/
namespace Kafka.Msg

theorem UpdateMetadataPartitionState6.rewrites (version : Int16) : Rewrites (UpdateMetadataPartitionState6.decode version {}) (UpdateMetadataPartitionState6.wire version) (UpdateMetadataPartitionState6.Fits version) :=
  ((.onlyIf (g := version ≥ 0 ∧ version ≤ 4) (.field (get := fun (t : UpdateMetadataPartitionState6) => t.TopicName) (set := fun (t : UpdateMetadataPartitionState6) x => { t with TopicName := x }) .string (fun _ => rfl) (fun _ => rfl) (fun _ _ => rfl) (fun _ _ => rfl) (fun _ _ => rfl)) (fun _ => rfl) : RewriteStep _ (UpdateMetadataPartitionState6.first 0) (UpdateMetadataPartitionState6.first 1) _ _)
    |>.andThen (.field (get := fun (t : UpdateMetadataPartitionState6) => t.PartitionIndex) (set := fun (t : UpdateMetadataPartitionState6) x => { t with PartitionIndex := x }) .int32 (fun _ => rfl) (fun _ => rfl) (fun _ _ => rfl) (fun _ _ => rfl) (fun _ _ => rfl) : RewriteStep _ (UpdateMetadataPartitionState6.first 1) (UpdateMetadataPartitionState6.first 2) _ _)
    |>.andThen (.field (get := fun (t : UpdateMetadataPartitionState6) => t.ControllerEpoch) (set := fun (t : UpdateMetadataPartitionState6) x => { t with ControllerEpoch := x }) .int32 (fun _ => rfl) (fun _ => rfl) (fun _ _ => rfl) (fun _ _ => rfl) (fun _ _ => rfl) : RewriteStep _ (UpdateMetadataPartitionState6.first 2) (UpdateMetadataPartitionState6.first 3) _ _)
    |>.andThen (.field (get := fun (t : UpdateMetadataPartitionState6) => t.Leader) (set := fun (t : UpdateMetadataPartitionState6) x => { t with Leader := x }) .int32 (fun _ => rfl) (fun _ => rfl) (fun _ _ => rfl) (fun _ _ => rfl) (fun _ _ => rfl) : RewriteStep _ (UpdateMetadataPartitionState6.first 3) (UpdateMetadataPartitionState6.first 4) _ _)
    |>.andThen (.field (get := fun (t : UpdateMetadataPartitionState6) => t.LeaderEpoch) (set := fun (t : UpdateMetadataPartitionState6) x => { t with LeaderEpoch := x }) .int32 (fun _ => rfl) (fun _ => rfl) (fun _ _ => rfl) (fun _ _ => rfl) (fun _ _ => rfl) : RewriteStep _ (UpdateMetadataPartitionState6.first 4) (UpdateMetadataPartitionState6.first 5) _ _)
    |>.andThen (.field (get := fun (t : UpdateMetadataPartitionState6) => t.Isr) (set := fun (t : UpdateMetadataPartitionState6) x => { t with Isr := x }) .int32Array (fun _ => rfl) (fun _ => rfl) (fun _ _ => rfl) (fun _ _ => rfl) (fun _ _ => rfl) : RewriteStep _ (UpdateMetadataPartitionState6.first 5) (UpdateMetadataPartitionState6.first 6) _ _)
    |>.andThen (.field (get := fun (t : UpdateMetadataPartitionState6) => t.ZkVersion) (set := fun (t : UpdateMetadataPartitionState6) x => { t with ZkVersion := x }) .int32 (fun _ => rfl) (fun _ => rfl) (fun _ _ => rfl) (fun _ _ => rfl) (fun _ _ => rfl) : RewriteStep _ (UpdateMetadataPartitionState6.first 6) (UpdateMetadataPartitionState6.first 7) _ _)
    |>.andThen (.field (get := fun (t : UpdateMetadataPartitionState6) => t.Replicas) (set := fun (t : UpdateMetadataPartitionState6) x => { t with Replicas := x }) .int32Array (fun _ => rfl) (fun _ => rfl) (fun _ _ => rfl) (fun _ _ => rfl) (fun _ _ => rfl) : RewriteStep _ (UpdateMetadataPartitionState6.first 7) (UpdateMetadataPartitionState6.first 8) _ _)
    |>.andThen (.onlyIf (g := version ≥ 4) (.field (get := fun (t : UpdateMetadataPartitionState6) => t.OfflineReplicas) (set := fun (t : UpdateMetadataPartitionState6) x => { t with OfflineReplicas := x }) .int32Array (fun _ => rfl) (fun _ => rfl) (fun _ _ => rfl) (fun _ _ => rfl) (fun _ _ => rfl)) (fun _ => rfl) : RewriteStep _ (UpdateMetadataPartitionState6.first 8) (UpdateMetadataPartitionState6.first 9) _ _)).whole {} rfl (fun _ => rfl) (fun _ h => ⟨h.1.1.1.1.1.1.1.1, h.1.1.1.2, h.1.2, h.2⟩)

theorem UpdateMetadataTopicState6.rewrites (version : Int16) : Rewrites (UpdateMetadataTopicState6.decode version {}) (UpdateMetadataTopicState6.wire version) (UpdateMetadataTopicState6.Fits version) :=
  ((.onlyIf (g := version ≥ 5) (.field (get := fun (t : UpdateMetadataTopicState6) => t.TopicName) (set := fun (t : UpdateMetadataTopicState6) x => { t with TopicName := x }) .string (fun _ => rfl) (fun _ => rfl) (fun _ _ => rfl) (fun _ _ => rfl) (fun _ _ => rfl)) (fun _ => rfl) : RewriteStep _ (UpdateMetadataTopicState6.first 0) (UpdateMetadataTopicState6.first 1) _ _)
    |>.andThen (.onlyIf (g := version ≥ 5) (.structs (get := fun (t : UpdateMetadataTopicState6) => t.PartitionStates) (set := fun (t : UpdateMetadataTopicState6) x => { t with PartitionStates := x }) (UpdateMetadataPartitionState6.rewrites version) (fun _ => rfl) (fun _ => rfl) (fun _ => rfl) (fun _ _ => rfl) (fun _ _ => rfl) (fun _ _ => rfl)) (fun _ => rfl) : RewriteStep _ (UpdateMetadataTopicState6.first 1) (UpdateMetadataTopicState6.first 2) _ _)).whole {} rfl (fun _ => rfl) (fun _ h => ⟨h.1, h.2⟩)

theorem UpdateMetadataEndpoint6.rewrites (version : Int16) : Rewrites (UpdateMetadataEndpoint6.decode version {}) (UpdateMetadataEndpoint6.wire version) (UpdateMetadataEndpoint6.Fits version) :=
  ((.onlyIf (g := version ≥ 1) (.field (get := fun (t : UpdateMetadataEndpoint6) => t.Port) (set := fun (t : UpdateMetadataEndpoint6) x => { t with Port := x }) .int32 (fun _ => rfl) (fun _ => rfl) (fun _ _ => rfl) (fun _ _ => rfl) (fun _ _ => rfl)) (fun _ => rfl) : RewriteStep _ (UpdateMetadataEndpoint6.first 0) (UpdateMetadataEndpoint6.first 1) _ _)
    |>.andThen (.onlyIf (g := version ≥ 1) (.field (get := fun (t : UpdateMetadataEndpoint6) => t.Host) (set := fun (t : UpdateMetadataEndpoint6) x => { t with Host := x }) .string (fun _ => rfl) (fun _ => rfl) (fun _ _ => rfl) (fun _ _ => rfl) (fun _ _ => rfl)) (fun _ => rfl) : RewriteStep _ (UpdateMetadataEndpoint6.first 1) (UpdateMetadataEndpoint6.first 2) _ _)
    |>.andThen (.onlyIf (g := version ≥ 3) (.field (get := fun (t : UpdateMetadataEndpoint6) => t.Listener) (set := fun (t : UpdateMetadataEndpoint6) x => { t with Listener := x }) .string (fun _ => rfl) (fun _ => rfl) (fun _ _ => rfl) (fun _ _ => rfl) (fun _ _ => rfl)) (fun _ => rfl) : RewriteStep _ (UpdateMetadataEndpoint6.first 2) (UpdateMetadataEndpoint6.first 3) _ _)
    |>.andThen (.onlyIf (g := version ≥ 1) (.field (get := fun (t : UpdateMetadataEndpoint6) => t.SecurityProtocol) (set := fun (t : UpdateMetadataEndpoint6) x => { t with SecurityProtocol := x }) .int16 (fun _ => rfl) (fun _ => rfl) (fun _ _ => rfl) (fun _ _ => rfl) (fun _ _ => rfl)) (fun _ => rfl) : RewriteStep _ (UpdateMetadataEndpoint6.first 3) (UpdateMetadataEndpoint6.first 4) _ _)).whole {} rfl (fun _ => rfl) (fun _ h => ⟨h.1.1.2, h.1.2⟩)

theorem UpdateMetadataBroker6.rewrites (version : Int16) : Rewrites (UpdateMetadataBroker6.decode version {}) (UpdateMetadataBroker6.wire version) (UpdateMetadataBroker6.Fits version) :=
  ((.field (get := fun (t : UpdateMetadataBroker6) => t.Id) (set := fun (t : UpdateMetadataBroker6) x => { t with Id := x }) .int32 (fun _ => rfl) (fun _ => rfl) (fun _ _ => rfl) (fun _ _ => rfl) (fun _ _ => rfl) : RewriteStep _ (UpdateMetadataBroker6.first 0) (UpdateMetadataBroker6.first 1) _ _)
    |>.andThen (.onlyIf (g := version ≥ 0 ∧ version ≤ 0) (.field (get := fun (t : UpdateMetadataBroker6) => t.V0Host) (set := fun (t : UpdateMetadataBroker6) x => { t with V0Host := x }) .string (fun _ => rfl) (fun _ => rfl) (fun _ _ => rfl) (fun _ _ => rfl) (fun _ _ => rfl)) (fun _ => rfl) : RewriteStep _ (UpdateMetadataBroker6.first 1) (UpdateMetadataBroker6.first 2) _ _)
    |>.andThen (.onlyIf (g := version ≥ 0 ∧ version ≤ 0) (.field (get := fun (t : UpdateMetadataBroker6) => t.V0Port) (set := fun (t : UpdateMetadataBroker6) x => { t with V0Port := x }) .int32 (fun _ => rfl) (fun _ => rfl) (fun _ _ => rfl) (fun _ _ => rfl) (fun _ _ => rfl)) (fun _ => rfl) : RewriteStep _ (UpdateMetadataBroker6.first 2) (UpdateMetadataBroker6.first 3) _ _)
    |>.andThen (.onlyIf (g := version ≥ 1) (.structs (get := fun (t : UpdateMetadataBroker6) => t.Endpoints) (set := fun (t : UpdateMetadataBroker6) x => { t with Endpoints := x }) (UpdateMetadataEndpoint6.rewrites version) (fun _ => rfl) (fun _ => rfl) (fun _ => rfl) (fun _ _ => rfl) (fun _ _ => rfl) (fun _ _ => rfl)) (fun _ => rfl) : RewriteStep _ (UpdateMetadataBroker6.first 3) (UpdateMetadataBroker6.first 4) _ _)
    |>.andThen (.onlyIf (g := version ≥ 2) (.field (get := fun (t : UpdateMetadataBroker6) => t.Rack) (set := fun (t : UpdateMetadataBroker6) x => { t with Rack := x }) .string (fun _ => rfl) (fun _ => rfl) (fun _ _ => rfl) (fun _ _ => rfl) (fun _ _ => rfl)) (fun _ => rfl) : RewriteStep _ (UpdateMetadataBroker6.first 4) (UpdateMetadataBroker6.first 5) _ _)).whole {} rfl (fun _ => rfl) (fun _ h => ⟨h.1.1.1.2, h.1.2, h.2⟩)

theorem UpdateMetadataRequest.rewrites (version : Int16) : Rewrites (UpdateMetadataRequest.decode version {}) (UpdateMetadataRequest.wire version) (UpdateMetadataRequest.Fits version) :=
  ((.field (get := fun (t : UpdateMetadataRequest) => t.ControllerId) (set := fun (t : UpdateMetadataRequest) x => { t with ControllerId := x }) .int32 (fun _ => rfl) (fun _ => rfl) (fun _ _ => rfl) (fun _ _ => rfl) (fun _ _ => rfl) : RewriteStep _ (UpdateMetadataRequest.first 0) (UpdateMetadataRequest.first 1) _ _)
    |>.andThen (.field (get := fun (t : UpdateMetadataRequest) => t.ControllerEpoch) (set := fun (t : UpdateMetadataRequest) x => { t with ControllerEpoch := x }) .int32 (fun _ => rfl) (fun _ => rfl) (fun _ _ => rfl) (fun _ _ => rfl) (fun _ _ => rfl) : RewriteStep _ (UpdateMetadataRequest.first 1) (UpdateMetadataRequest.first 2) _ _)
    |>.andThen (.onlyIf (g := version ≥ 5) (.field (get := fun (t : UpdateMetadataRequest) => t.BrokerEpoch) (set := fun (t : UpdateMetadataRequest) x => { t with BrokerEpoch := x }) .int64 (fun _ => rfl) (fun _ => rfl) (fun _ _ => rfl) (fun _ _ => rfl) (fun _ _ => rfl)) (fun _ => rfl) : RewriteStep _ (UpdateMetadataRequest.first 2) (UpdateMetadataRequest.first 3) _ _)
    |>.andThen (.onlyIf (g := version ≥ 0 ∧ version ≤ 4) (.structs (get := fun (t : UpdateMetadataRequest) => t.UngroupedPartitionStates) (set := fun (t : UpdateMetadataRequest) x => { t with UngroupedPartitionStates := x }) (UpdateMetadataPartitionState6.rewrites version) (fun _ => rfl) (fun _ => rfl) (fun _ => rfl) (fun _ _ => rfl) (fun _ _ => rfl) (fun _ _ => rfl)) (fun _ => rfl) : RewriteStep _ (UpdateMetadataRequest.first 3) (UpdateMetadataRequest.first 4) _ _)
    |>.andThen (.onlyIf (g := version ≥ 5) (.structs (get := fun (t : UpdateMetadataRequest) => t.TopicStates) (set := fun (t : UpdateMetadataRequest) x => { t with TopicStates := x }) (UpdateMetadataTopicState6.rewrites version) (fun _ => rfl) (fun _ => rfl) (fun _ => rfl) (fun _ _ => rfl) (fun _ _ => rfl) (fun _ _ => rfl)) (fun _ => rfl) : RewriteStep _ (UpdateMetadataRequest.first 4) (UpdateMetadataRequest.first 5) _ _)
    |>.andThen (.structs (get := fun (t : UpdateMetadataRequest) => t.LiveBrokers) (set := fun (t : UpdateMetadataRequest) x => { t with LiveBrokers := x }) (UpdateMetadataBroker6.rewrites version) (fun _ => rfl) (fun _ => rfl) (fun _ => rfl) (fun _ _ => rfl) (fun _ _ => rfl) (fun _ _ => rfl) : RewriteStep _ (UpdateMetadataRequest.first 5) (UpdateMetadataRequest.first 6) _ _)).whole {} rfl (fun _ => rfl) (fun _ h => ⟨h.1.1.2, h.1.2, h.2⟩)

theorem UpdateMetadataResponse.rewrites (version : Int16) : Rewrites (UpdateMetadataResponse.decode version {}) (UpdateMetadataResponse.wire version) (UpdateMetadataResponse.Fits version) :=
  ((.field (get := fun (t : UpdateMetadataResponse) => t.ErrorCode) (set := fun (t : UpdateMetadataResponse) x => { t with ErrorCode := x }) .int16 (fun _ => rfl) (fun _ => rfl) (fun _ _ => rfl) (fun _ _ => rfl) (fun _ _ => rfl) : RewriteStep _ (UpdateMetadataResponse.first 0) (UpdateMetadataResponse.first 1) _ _)).whole {} rfl (fun _ => rfl) (fun _ _ => trivial)

theorem rewritesUpdateMetadata : ∀ p ∈ typesUpdateMetadata, ∀ v, Rewrites (p.1.decode v p.1.zero) (p.2.wire v) (p.2.Fits v) := by
  unfold typesUpdateMetadata
  simp only [List.forall_mem_cons]
  exact ⟨UpdateMetadataRequest.rewrites, UpdateMetadataTopicState6.rewrites, UpdateMetadataBroker6.rewrites, UpdateMetadataEndpoint6.rewrites, UpdateMetadataPartitionState6.rewrites, UpdateMetadataResponse.rewrites, fun _ h => absurd h (by simp)⟩

end Kafka.Msg
