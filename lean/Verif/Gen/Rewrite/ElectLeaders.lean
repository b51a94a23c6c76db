import Verif.Message.Rewrites
import Verif.Gen.Kept.ElectLeaders
import Verif.Gen.All
/-!
Generated by tools/gen_messages.py: encoding ElectLeaders messages that were decoded.
-/
namespace Kafka.Msg

theorem TopicPartitions43.rewrites (version : Int16) : Rewrites (TopicPartitions43.decode version {}) (TopicPartitions43.wire version) (TopicPartitions43.Fits version) :=
  ((.field (get := fun (t : TopicPartitions43) => t.Topic) (set := fun (t : TopicPartitions43) x => { t with Topic := x }) .string (fun _ => rfl) (fun _ => rfl) (fun _ _ => rfl) (fun _ _ => rfl) (fun _ _ => rfl) : RewriteStep _ (TopicPartitions43.first 0) (TopicPartitions43.first 1) _ _)
    |>.andThen (.field (get := fun (t : TopicPartitions43) => t.PartitionId) (set := fun (t : TopicPartitions43) x => { t with PartitionId := x }) .int32Array (fun _ => rfl) (fun _ => rfl) (fun _ _ => rfl) (fun _ _ => rfl) (fun _ _ => rfl) : RewriteStep _ (TopicPartitions43.first 1) (TopicPartitions43.first 2) _ _)).whole {} rfl (fun _ => rfl) (fun _ h => ⟨h.1, h.2⟩)

theorem ElectLeadersRequest.rewrites (version : Int16) : Rewrites (ElectLeadersRequest.decode version {}) (ElectLeadersRequest.wire version) (ElectLeadersRequest.Fits version) :=
  ((.onlyIf (g := version ≥ 1) (.field (get := fun (t : ElectLeadersRequest) => t.ElectionType) (set := fun (t : ElectLeadersRequest) x => { t with ElectionType := x }) .int8 (fun _ => rfl) (fun _ => rfl) (fun _ _ => rfl) (fun _ _ => rfl) (fun _ _ => rfl)) (fun _ => rfl) : RewriteStep _ (ElectLeadersRequest.first 0) (ElectLeadersRequest.first 1) _ _)
    |>.andThen (.structs (get := fun (t : ElectLeadersRequest) => t.TopicPartitions) (set := fun (t : ElectLeadersRequest) x => { t with TopicPartitions := x }) (TopicPartitions43.rewrites version) (fun _ => rfl) (fun _ => rfl) (fun _ => rfl) (fun _ _ => rfl) (fun _ _ => rfl) (fun _ _ => rfl) : RewriteStep _ (ElectLeadersRequest.first 1) (ElectLeadersRequest.first 2) _ _)
    |>.andThen (.field (get := fun (t : ElectLeadersRequest) => t.TimeoutMs) (set := fun (t : ElectLeadersRequest) x => { t with TimeoutMs := x }) .int32 (fun _ => rfl) (fun _ => rfl) (fun _ _ => rfl) (fun _ _ => rfl) (fun _ _ => rfl) : RewriteStep _ (ElectLeadersRequest.first 2) (ElectLeadersRequest.first 3) _ _)).whole {} rfl (fun _ => rfl) (fun _ h => ⟨h.1.2⟩)

theorem PartitionResult43.rewrites (version : Int16) : Rewrites (PartitionResult43.decode version {}) (PartitionResult43.wire version) (PartitionResult43.Fits version) :=
  ((.field (get := fun (t : PartitionResult43) => t.PartitionId) (set := fun (t : PartitionResult43) x => { t with PartitionId := x }) .int32 (fun _ => rfl) (fun _ => rfl) (fun _ _ => rfl) (fun _ _ => rfl) (fun _ _ => rfl) : RewriteStep _ (PartitionResult43.first 0) (PartitionResult43.first 1) _ _)
    |>.andThen (.field (get := fun (t : PartitionResult43) => t.ErrorCode) (set := fun (t : PartitionResult43) x => { t with ErrorCode := x }) .int16 (fun _ => rfl) (fun _ => rfl) (fun _ _ => rfl) (fun _ _ => rfl) (fun _ _ => rfl) : RewriteStep _ (PartitionResult43.first 1) (PartitionResult43.first 2) _ _)
    |>.andThen (.field (get := fun (t : PartitionResult43) => t.ErrorMessage) (set := fun (t : PartitionResult43) x => { t with ErrorMessage := x }) .string (fun _ => rfl) (fun _ => rfl) (fun _ _ => rfl) (fun _ _ => rfl) (fun _ _ => rfl) : RewriteStep _ (PartitionResult43.first 2) (PartitionResult43.first 3) _ _)).whole {} rfl (fun _ => rfl) (fun _ h => ⟨h.2⟩)

theorem ReplicaElectionResult43.rewrites (version : Int16) : Rewrites (ReplicaElectionResult43.decode version {}) (ReplicaElectionResult43.wire version) (ReplicaElectionResult43.Fits version) :=
  ((.field (get := fun (t : ReplicaElectionResult43) => t.Topic) (set := fun (t : ReplicaElectionResult43) x => { t with Topic := x }) .string (fun _ => rfl) (fun _ => rfl) (fun _ _ => rfl) (fun _ _ => rfl) (fun _ _ => rfl) : RewriteStep _ (ReplicaElectionResult43.first 0) (ReplicaElectionResult43.first 1) _ _)
    |>.andThen (.structs (get := fun (t : ReplicaElectionResult43) => t.PartitionResult) (set := fun (t : ReplicaElectionResult43) x => { t with PartitionResult := x }) (PartitionResult43.rewrites version) (fun _ => rfl) (fun _ => rfl) (fun _ => rfl) (fun _ _ => rfl) (fun _ _ => rfl) (fun _ _ => rfl) : RewriteStep _ (ReplicaElectionResult43.first 1) (ReplicaElectionResult43.first 2) _ _)).whole {} rfl (fun _ => rfl) (fun _ h => ⟨h.1, h.2⟩)

theorem ElectLeadersResponse.rewrites (version : Int16) : Rewrites (ElectLeadersResponse.decode version {}) (ElectLeadersResponse.wire version) (ElectLeadersResponse.Fits version) :=
  ((.field (get := fun (t : ElectLeadersResponse) => t.ThrottleTimeMs) (set := fun (t : ElectLeadersResponse) x => { t with ThrottleTimeMs := x }) .int32 (fun _ => rfl) (fun _ => rfl) (fun _ _ => rfl) (fun _ _ => rfl) (fun _ _ => rfl) : RewriteStep _ (ElectLeadersResponse.first 0) (ElectLeadersResponse.first 1) _ _)
    |>.andThen (.onlyIf (g := version ≥ 1) (.field (get := fun (t : ElectLeadersResponse) => t.ErrorCode) (set := fun (t : ElectLeadersResponse) x => { t with ErrorCode := x }) .int16 (fun _ => rfl) (fun _ => rfl) (fun _ _ => rfl) (fun _ _ => rfl) (fun _ _ => rfl)) (fun _ => rfl) : RewriteStep _ (ElectLeadersResponse.first 1) (ElectLeadersResponse.first 2) _ _)
    |>.andThen (.structs (get := fun (t : ElectLeadersResponse) => t.ReplicaElectionResults) (set := fun (t : ElectLeadersResponse) x => { t with ReplicaElectionResults := x }) (ReplicaElectionResult43.rewrites version) (fun _ => rfl) (fun _ => rfl) (fun _ => rfl) (fun _ _ => rfl) (fun _ _ => rfl) (fun _ _ => rfl) : RewriteStep _ (ElectLeadersResponse.first 2) (ElectLeadersResponse.first 3) _ _)).whole {} rfl (fun _ => rfl) (fun _ h => ⟨h.2⟩)

theorem rewritesElectLeaders : ∀ p ∈ typesElectLeaders, ∀ v, Rewrites (p.1.decode v p.1.zero) (p.2.wire v) (p.2.Fits v) := by
  unfold typesElectLeaders
  simp only [List.forall_mem_cons]
  exact ⟨ElectLeadersRequest.rewrites, TopicPartitions43.rewrites, ElectLeadersResponse.rewrites, ReplicaElectionResult43.rewrites, PartitionResult43.rewrites, fun _ h => absurd h (by simp)⟩

end Kafka.Msg
