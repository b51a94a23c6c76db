import Verif.Message.Rewrites
import Verif.Gen.Kept.LeaderAndIsr
import Verif.Gen.All
/-!
Generated by tools/gen_messages.py: encoding LeaderAndIsr messages that were decoded.
-/
namespace Kafka.Msg

theorem LeaderAndIsrPartitionState4.rewrites (version : Int16) : Rewrites (LeaderAndIsrPartitionState4.decode version {}) (LeaderAndIsrPartitionState4.wire version) (LeaderAndIsrPartitionState4.Fits version) :=
  ((.onlyIf (g := version ≥ 0 ∧ version ≤ 1) (.field (get := fun (t : LeaderAndIsrPartitionState4) => t.TopicName) (set := fun (t : LeaderAndIsrPartitionState4) x => { t with TopicName := x }) .string (fun _ => rfl) (fun _ => rfl) (fun _ _ => rfl) (fun _ _ => rfl) (fun _ _ => rfl)) (fun _ => rfl) : RewriteStep _ (LeaderAndIsrPartitionState4.first 0) (LeaderAndIsrPartitionState4.first 1) _ _)
    |>.andThen (.field (get := fun (t : LeaderAndIsrPartitionState4) => t.PartitionIndex) (set := fun (t : LeaderAndIsrPartitionState4) x => { t with PartitionIndex := x }) .int32 (fun _ => rfl) (fun _ => rfl) (fun _ _ => rfl) (fun _ _ => rfl) (fun _ _ => rfl) : RewriteStep _ (LeaderAndIsrPartitionState4.first 1) (LeaderAndIsrPartitionState4.first 2) _ _)
    |>.andThen (.field (get := fun (t : LeaderAndIsrPartitionState4) => t.ControllerEpoch) (set := fun (t : LeaderAndIsrPartitionState4) x => { t with ControllerEpoch := x }) .int32 (fun _ => rfl) (fun _ => rfl) (fun _ _ => rfl) (fun _ _ => rfl) (fun _ _ => rfl) : RewriteStep _ (LeaderAndIsrPartitionState4.first 2) (LeaderAndIsrPartitionState4.first 3) _ _)
    |>.andThen (.field (get := fun (t : LeaderAndIsrPartitionState4) => t.Leader) (set := fun (t : LeaderAndIsrPartitionState4) x => { t with Leader := x }) .int32 (fun _ => rfl) (fun _ => rfl) (fun _ _ => rfl) (fun _ _ => rfl) (fun _ _ => rfl) : RewriteStep _ (LeaderAndIsrPartitionState4.first 3) (LeaderAndIsrPartitionState4.first 4) _ _)
    |>.andThen (.field (get := fun (t : LeaderAndIsrPartitionState4) => t.LeaderEpoch) (set := fun (t : LeaderAndIsrPartitionState4) x => { t with LeaderEpoch := x }) .int32 (fun _ => rfl) (fun _ => rfl) (fun _ _ => rfl) (fun _ _ => rfl) (fun _ _ => rfl) : RewriteStep _ (LeaderAndIsrPartitionState4.first 4) (LeaderAndIsrPartitionState4.first 5) _ _)
    |>.andThen (.field (get := fun (t : LeaderAndIsrPartitionState4) => t.Isr) (set := fun (t : LeaderAndIsrPartitionState4) x => { t with Isr := x }) .int32Array (fun _ => rfl) (fun _ => rfl) (fun _ _ => rfl) (fun _ _ => rfl) (fun _ _ => rfl) : RewriteStep _ (LeaderAndIsrPartitionState4.first 5) (LeaderAndIsrPartitionState4.first 6) _ _)
    |>.andThen (.field (get := fun (t : LeaderAndIsrPartitionState4) => t.ZkVersion) (set := fun (t : LeaderAndIsrPartitionState4) x => { t with ZkVersion := x }) .int32 (fun _ => rfl) (fun _ => rfl) (fun _ _ => rfl) (fun _ _ => rfl) (fun _ _ => rfl) : RewriteStep _ (LeaderAndIsrPartitionState4.first 6) (LeaderAndIsrPartitionState4.first 7) _ _)
    |>.andThen (.field (get := fun (t : LeaderAndIsrPartitionState4) => t.Replicas) (set := fun (t : LeaderAndIsrPartitionState4) x => { t with Replicas := x }) .int32Array (fun _ => rfl) (fun _ => rfl) (fun _ _ => rfl) (fun _ _ => rfl) (fun _ _ => rfl) : RewriteStep _ (LeaderAndIsrPartitionState4.first 7) (LeaderAndIsrPartitionState4.first 8) _ _)
    |>.andThen (.onlyIf (g := version ≥ 3) (.field (get := fun (t : LeaderAndIsrPartitionState4) => t.AddingReplicas) (set := fun (t : LeaderAndIsrPartitionState4) x => { t with AddingReplicas := x }) .int32Array (fun _ => rfl) (fun _ => rfl) (fun _ _ => rfl) (fun _ _ => rfl) (fun _ _ => rfl)) (fun _ => rfl) : RewriteStep _ (LeaderAndIsrPartitionState4.first 8) (LeaderAndIsrPartitionState4.first 9) _ _)
    |>.andThen (.onlyIf (g := version ≥ 3) (.field (get := fun (t : LeaderAndIsrPartitionState4) => t.RemovingReplicas) (set := fun (t : LeaderAndIsrPartitionState4) x => { t with RemovingReplicas := x }) .int32Array (fun _ => rfl) (fun _ => rfl) (fun _ _ => rfl) (fun _ _ => rfl) (fun _ _ => rfl)) (fun _ => rfl) : RewriteStep _ (LeaderAndIsrPartitionState4.first 9) (LeaderAndIsrPartitionState4.first 10) _ _)
    |>.andThen (.onlyIf (g := version ≥ 1) (.field (get := fun (t : LeaderAndIsrPartitionState4) => t.IsNew) (set := fun (t : LeaderAndIsrPartitionState4) x => { t with IsNew := x }) .bool (fun _ => rfl) (fun _ => rfl) (fun _ _ => rfl) (fun _ _ => rfl) (fun _ _ => rfl)) (fun _ => rfl) : RewriteStep _ (LeaderAndIsrPartitionState4.first 10) (LeaderAndIsrPartitionState4.first 11) _ _)).whole {} rfl (fun _ => rfl) (fun _ h => ⟨h.1.1.1.1.1.1.1.1.1.1, h.1.1.1.1.1.2, h.1.1.1.2, h.1.1.2, h.1.2⟩)

theorem LeaderAndIsrTopicState4.rewrites (version : Int16) : Rewrites (LeaderAndIsrTopicState4.decode version {}) (LeaderAndIsrTopicState4.wire version) (LeaderAndIsrTopicState4.Fits version) :=
  ((.onlyIf (g := version ≥ 2) (.field (get := fun (t : LeaderAndIsrTopicState4) => t.TopicName) (set := fun (t : LeaderAndIsrTopicState4) x => { t with TopicName := x }) .string (fun _ => rfl) (fun _ => rfl) (fun _ _ => rfl) (fun _ _ => rfl) (fun _ _ => rfl)) (fun _ => rfl) : RewriteStep _ (LeaderAndIsrTopicState4.first 0) (LeaderAndIsrTopicState4.first 1) _ _)
    |>.andThen (.onlyIf (g := version ≥ 2) (.structs (get := fun (t : LeaderAndIsrTopicState4) => t.PartitionStates) (set := fun (t : LeaderAndIsrTopicState4) x => { t with PartitionStates := x }) (LeaderAndIsrPartitionState4.rewrites version) (fun _ => rfl) (fun _ => rfl) (fun _ => rfl) (fun _ _ => rfl) (fun _ _ => rfl) (fun _ _ => rfl)) (fun _ => rfl) : RewriteStep _ (LeaderAndIsrTopicState4.first 1) (LeaderAndIsrTopicState4.first 2) _ _)).whole {} rfl (fun _ => rfl) (fun _ h => ⟨h.1, h.2⟩)

theorem LeaderAndIsrLiveLeader4.rewrites (version : Int16) : Rewrites (LeaderAndIsrLiveLeader4.decode version {}) (LeaderAndIsrLiveLeader4.wire version) (LeaderAndIsrLiveLeader4.Fits version) :=
  ((.field (get := fun (t : LeaderAndIsrLiveLeader4) => t.BrokerId) (set := fun (t : LeaderAndIsrLiveLeader4) x => { t with BrokerId := x }) .int32 (fun _ => rfl) (fun _ => rfl) (fun _ _ => rfl) (fun _ _ => rfl) (fun _ _ => rfl) : RewriteStep _ (LeaderAndIsrLiveLeader4.first 0) (LeaderAndIsrLiveLeader4.first 1) _ _)
    |>.andThen (.field (get := fun (t : LeaderAndIsrLiveLeader4) => t.HostName) (set := fun (t : LeaderAndIsrLiveLeader4) x => { t with HostName := x }) .string (fun _ => rfl) (fun _ => rfl) (fun _ _ => rfl) (fun _ _ => rfl) (fun _ _ => rfl) : RewriteStep _ (LeaderAndIsrLiveLeader4.first 1) (LeaderAndIsrLiveLeader4.first 2) _ _)
    |>.andThen (.field (get := fun (t : LeaderAndIsrLiveLeader4) => t.Port) (set := fun (t : LeaderAndIsrLiveLeader4) x => { t with Port := x }) .int32 (fun _ => rfl) (fun _ => rfl) (fun _ _ => rfl) (fun _ _ => rfl) (fun _ _ => rfl) : RewriteStep _ (LeaderAndIsrLiveLeader4.first 2) (LeaderAndIsrLiveLeader4.first 3) _ _)).whole {} rfl (fun _ => rfl) (fun _ h => ⟨h.1.2⟩)

theorem LeaderAndIsrRequest.rewrites (version : Int16) : Rewrites (LeaderAndIsrRequest.decode version {}) (LeaderAndIsrRequest.wire version) (LeaderAndIsrRequest.Fits version) :=
  ((.field (get := fun (t : LeaderAndIsrRequest) => t.ControllerId) (set := fun (t : LeaderAndIsrRequest) x => { t with ControllerId := x }) .int32 (fun _ => rfl) (fun _ => rfl) (fun _ _ => rfl) (fun _ _ => rfl) (fun _ _ => rfl) : RewriteStep _ (LeaderAndIsrRequest.first 0) (LeaderAndIsrRequest.first 1) _ _)
    |>.andThen (.field (get := fun (t : LeaderAndIsrRequest) => t.ControllerEpoch) (set := fun (t : LeaderAndIsrRequest) x => { t with ControllerEpoch := x }) .int32 (fun _ => rfl) (fun _ => rfl) (fun _ _ => rfl) (fun _ _ => rfl) (fun _ _ => rfl) : RewriteStep _ (LeaderAndIsrRequest.first 1) (LeaderAndIsrRequest.first 2) _ _)
    |>.andThen (.onlyIf (g := version ≥ 2) (.field (get := fun (t : LeaderAndIsrRequest) => t.BrokerEpoch) (set := fun (t : LeaderAndIsrRequest) x => { t with BrokerEpoch := x }) .int64 (fun _ => rfl) (fun _ => rfl) (fun _ _ => rfl) (fun _ _ => rfl) (fun _ _ => rfl)) (fun _ => rfl) : RewriteStep _ (LeaderAndIsrRequest.first 2) (LeaderAndIsrRequest.first 3) _ _)
    |>.andThen (.onlyIf (g := version ≥ 0 ∧ version ≤ 1) (.structs (get := fun (t : LeaderAndIsrRequest) => t.UngroupedPartitionStates) (set := fun (t : LeaderAndIsrRequest) x => { t with UngroupedPartitionStates := x }) (LeaderAndIsrPartitionState4.rewrites version) (fun _ => rfl) (fun _ => rfl) (fun _ => rfl) (fun _ _ => rfl) (fun _ _ => rfl) (fun _ _ => rfl)) (fun _ => rfl) : RewriteStep _ (LeaderAndIsrRequest.first 3) (LeaderAndIsrRequest.first 4) _ _)
    |>.andThen (.onlyIf (g := version ≥ 2) (.structs (get := fun (t : LeaderAndIsrRequest) => t.TopicStates) (set := fun (t : LeaderAndIsrRequest) x => { t with TopicStates := x }) (LeaderAndIsrTopicState4.rewrites version) (fun _ => rfl) (fun _ => rfl) (fun _ => rfl) (fun _ _ => rfl) (fun _ _ => rfl) (fun _ _ => rfl)) (fun _ => rfl) : RewriteStep _ (LeaderAndIsrRequest.first 4) (LeaderAndIsrRequest.first 5) _ _)
    |>.andThen (.structs (get := fun (t : LeaderAndIsrRequest) => t.LiveLeaders) (set := fun (t : LeaderAndIsrRequest) x => { t with LiveLeaders := x }) (LeaderAndIsrLiveLeader4.rewrites version) (fun _ => rfl) (fun _ => rfl) (fun _ => rfl) (fun _ _ => rfl) (fun _ _ => rfl) (fun _ _ => rfl) : RewriteStep _ (LeaderAndIsrRequest.first 5) (LeaderAndIsrRequest.first 6) _ _)).whole {} rfl (fun _ => rfl) (fun _ h => ⟨h.1.1.2, h.1.2, h.2⟩)

theorem LeaderAndIsrPartitionError4.rewrites (version : Int16) : Rewrites (LeaderAndIsrPartitionError4.decode version {}) (LeaderAndIsrPartitionError4.wire version) (LeaderAndIsrPartitionError4.Fits version) :=
  ((.field (get := fun (t : LeaderAndIsrPartitionError4) => t.TopicName) (set := fun (t : LeaderAndIsrPartitionError4) x => { t with TopicName := x }) .string (fun _ => rfl) (fun _ => rfl) (fun _ _ => rfl) (fun _ _ => rfl) (fun _ _ => rfl) : RewriteStep _ (LeaderAndIsrPartitionError4.first 0) (LeaderAndIsrPartitionError4.first 1) _ _)
    |>.andThen (.field (get := fun (t : LeaderAndIsrPartitionError4) => t.PartitionIndex) (set := fun (t : LeaderAndIsrPartitionError4) x => { t with PartitionIndex := x }) .int32 (fun _ => rfl) (fun _ => rfl) (fun _ _ => rfl) (fun _ _ => rfl) (fun _ _ => rfl) : RewriteStep _ (LeaderAndIsrPartitionError4.first 1) (LeaderAndIsrPartitionError4.first 2) _ _)
    |>.andThen (.field (get := fun (t : LeaderAndIsrPartitionError4) => t.ErrorCode) (set := fun (t : LeaderAndIsrPartitionError4) x => { t with ErrorCode := x }) .int16 (fun _ => rfl) (fun _ => rfl) (fun _ _ => rfl) (fun _ _ => rfl) (fun _ _ => rfl) : RewriteStep _ (LeaderAndIsrPartitionError4.first 2) (LeaderAndIsrPartitionError4.first 3) _ _)).whole {} rfl (fun _ => rfl) (fun _ h => ⟨h.1.1⟩)

theorem LeaderAndIsrResponse.rewrites (version : Int16) : Rewrites (LeaderAndIsrResponse.decode version {}) (LeaderAndIsrResponse.wire version) (LeaderAndIsrResponse.Fits version) :=
  ((.field (get := fun (t : LeaderAndIsrResponse) => t.ErrorCode) (set := fun (t : LeaderAndIsrResponse) x => { t with ErrorCode := x }) .int16 (fun _ => rfl) (fun _ => rfl) (fun _ _ => rfl) (fun _ _ => rfl) (fun _ _ => rfl) : RewriteStep _ (LeaderAndIsrResponse.first 0) (LeaderAndIsrResponse.first 1) _ _)
    |>.andThen (.structs (get := fun (t : LeaderAndIsrResponse) => t.PartitionErrors) (set := fun (t : LeaderAndIsrResponse) x => { t with PartitionErrors := x }) (LeaderAndIsrPartitionError4.rewrites version) (fun _ => rfl) (fun _ => rfl) (fun _ => rfl) (fun _ _ => rfl) (fun _ _ => rfl) (fun _ _ => rfl) : RewriteStep _ (LeaderAndIsrResponse.first 1) (LeaderAndIsrResponse.first 2) _ _)).whole {} rfl (fun _ => rfl) (fun _ h => ⟨h.2⟩)

theorem rewritesLeaderAndIsr : ∀ p ∈ typesLeaderAndIsr, ∀ v, Rewrites (p.1.decode v p.1.zero) (p.2.wire v) (p.2.Fits v) := by
  unfold typesLeaderAndIsr
  simp only [List.forall_mem_cons]
  exact ⟨LeaderAndIsrRequest.rewrites, LeaderAndIsrTopicState4.rewrites, LeaderAndIsrLiveLeader4.rewrites, LeaderAndIsrPartitionState4.rewrites, LeaderAndIsrResponse.rewrites, LeaderAndIsrPartitionError4.rewrites, fun _ h => absurd h (by simp)⟩

end Kafka.Msg
