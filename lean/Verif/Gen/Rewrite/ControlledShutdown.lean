import Verif.Message.Rewrites
import Verif.Gen.Kept.ControlledShutdown
import Verif.Gen.All
/-!
Generated by tools/gen_messages.py: encoding ControlledShutdown messages that were decoded.
-/
namespace Kafka.Msg

theorem ControlledShutdownRequest.rewrites (version : Int16) : Rewrites (ControlledShutdownRequest.decode version {}) (ControlledShutdownRequest.wire version) (ControlledShutdownRequest.Fits version) :=
  ((.field (get := fun (t : ControlledShutdownRequest) => t.BrokerId) (set := fun (t : ControlledShutdownRequest) x => { t with BrokerId := x }) .int32 (fun _ => rfl) (fun _ => rfl) (fun _ _ => rfl) (fun _ _ => rfl) (fun _ _ => rfl) : RewriteStep _ (ControlledShutdownRequest.first 0) (ControlledShutdownRequest.first 1) _ _)
    |>.andThen (.onlyIf (g := version ≥ 2) (.field (get := fun (t : ControlledShutdownRequest) => t.BrokerEpoch) (set := fun (t : ControlledShutdownRequest) x => { t with BrokerEpoch := x }) .int64 (fun _ => rfl) (fun _ => rfl) (fun _ _ => rfl) (fun _ _ => rfl) (fun _ _ => rfl)) (fun _ => rfl) : RewriteStep _ (ControlledShutdownRequest.first 1) (ControlledShutdownRequest.first 2) _ _)).whole {} rfl (fun _ => rfl) (fun _ _ => trivial)

theorem RemainingPartition7.rewrites (version : Int16) : Rewrites (RemainingPartition7.decode version {}) (RemainingPartition7.wire version) (RemainingPartition7.Fits version) :=
  ((.field (get := fun (t : RemainingPartition7) => t.TopicName) (set := fun (t : RemainingPartition7) x => { t with TopicName := x }) .string (fun _ => rfl) (fun _ => rfl) (fun _ _ => rfl) (fun _ _ => rfl) (fun _ _ => rfl) : RewriteStep _ (RemainingPartition7.first 0) (RemainingPartition7.first 1) _ _)
    |>.andThen (.field (get := fun (t : RemainingPartition7) => t.PartitionIndex) (set := fun (t : RemainingPartition7) x => { t with PartitionIndex := x }) .int32 (fun _ => rfl) (fun _ => rfl) (fun _ _ => rfl) (fun _ _ => rfl) (fun _ _ => rfl) : RewriteStep _ (RemainingPartition7.first 1) (RemainingPartition7.first 2) _ _)).whole {} rfl (fun _ => rfl) (fun _ h => ⟨h.1⟩)

theorem ControlledShutdownResponse.rewrites (version : Int16) : Rewrites (ControlledShutdownResponse.decode version {}) (ControlledShutdownResponse.wire version) (ControlledShutdownResponse.Fits version) :=
  ((.field (get := fun (t : ControlledShutdownResponse) => t.ErrorCode) (set := fun (t : ControlledShutdownResponse) x => { t with ErrorCode := x }) .int16 (fun _ => rfl) (fun _ => rfl) (fun _ _ => rfl) (fun _ _ => rfl) (fun _ _ => rfl) : RewriteStep _ (ControlledShutdownResponse.first 0) (ControlledShutdownResponse.first 1) _ _)
    |>.andThen (.structs (get := fun (t : ControlledShutdownResponse) => t.RemainingPartitions) (set := fun (t : ControlledShutdownResponse) x => { t with RemainingPartitions := x }) (RemainingPartition7.rewrites version) (fun _ => rfl) (fun _ => rfl) (fun _ => rfl) (fun _ _ => rfl) (fun _ _ => rfl) (fun _ _ => rfl) : RewriteStep _ (ControlledShutdownResponse.first 1) (ControlledShutdownResponse.first 2) _ _)).whole {} rfl (fun _ => rfl) (fun _ h => ⟨h.2⟩)

theorem rewritesControlledShutdown : ∀ p ∈ typesControlledShutdown, ∀ v, Rewrites (p.1.decode v p.1.zero) (p.2.wire v) (p.2.Fits v) := by
  unfold typesControlledShutdown
  simp only [List.forall_mem_cons]
  exact ⟨ControlledShutdownRequest.rewrites, ControlledShutdownResponse.rewrites, RemainingPartition7.rewrites, fun _ h => absurd h (by simp)⟩

end Kafka.Msg
