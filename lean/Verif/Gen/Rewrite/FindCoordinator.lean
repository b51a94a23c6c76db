import Verif.Message.Rewrites
import Verif.Gen.Kept.FindCoordinator
import Verif.Gen.All
/-!
Generated by tools/gen_messages.py: encoding FindCoordinator messages that were decoded.
-/
namespace Kafka.Msg

theorem FindCoordinatorRequest.rewrites (version : Int16) : Rewrites (FindCoordinatorRequest.decode version {}) (FindCoordinatorRequest.wire version) (FindCoordinatorRequest.Fits version) :=
  ((.field (get := fun (t : FindCoordinatorRequest) => t.Key) (set := fun (t : FindCoordinatorRequest) x => { t with Key := x }) .string (fun _ => rfl) (fun _ => rfl) (fun _ _ => rfl) (fun _ _ => rfl) (fun _ _ => rfl) : RewriteStep _ (FindCoordinatorRequest.first 0) (FindCoordinatorRequest.first 1) _ _)
    |>.andThen (.onlyIf (g := version ≥ 1) (.field (get := fun (t : FindCoordinatorRequest) => t.KeyType) (set := fun (t : FindCoordinatorRequest) x => { t with KeyType := x }) .int8 (fun _ => rfl) (fun _ => rfl) (fun _ _ => rfl) (fun _ _ => rfl) (fun _ _ => rfl)) (fun _ => rfl) : RewriteStep _ (FindCoordinatorRequest.first 1) (FindCoordinatorRequest.first 2) _ _)).whole {} rfl (fun _ => rfl) (fun _ h => ⟨h.1⟩)

theorem FindCoordinatorResponse.rewrites (version : Int16) : Rewrites (FindCoordinatorResponse.decode version {}) (FindCoordinatorResponse.wire version) (FindCoordinatorResponse.Fits version) :=
  ((.onlyIf (g := version ≥ 1) (.field (get := fun (t : FindCoordinatorResponse) => t.ThrottleTimeMs) (set := fun (t : FindCoordinatorResponse) x => { t with ThrottleTimeMs := x }) .int32 (fun _ => rfl) (fun _ => rfl) (fun _ _ => rfl) (fun _ _ => rfl) (fun _ _ => rfl)) (fun _ => rfl) : RewriteStep _ (FindCoordinatorResponse.first 0) (FindCoordinatorResponse.first 1) _ _)
    |>.andThen (.field (get := fun (t : FindCoordinatorResponse) => t.ErrorCode) (set := fun (t : FindCoordinatorResponse) x => { t with ErrorCode := x }) .int16 (fun _ => rfl) (fun _ => rfl) (fun _ _ => rfl) (fun _ _ => rfl) (fun _ _ => rfl) : RewriteStep _ (FindCoordinatorResponse.first 1) (FindCoordinatorResponse.first 2) _ _)
    |>.andThen (.onlyIf (g := version ≥ 1) (.field (get := fun (t : FindCoordinatorResponse) => t.ErrorMessage) (set := fun (t : FindCoordinatorResponse) x => { t with ErrorMessage := x }) .string (fun _ => rfl) (fun _ => rfl) (fun _ _ => rfl) (fun _ _ => rfl) (fun _ _ => rfl)) (fun _ => rfl) : RewriteStep _ (FindCoordinatorResponse.first 2) (FindCoordinatorResponse.first 3) _ _)
    |>.andThen (.field (get := fun (t : FindCoordinatorResponse) => t.NodeId) (set := fun (t : FindCoordinatorResponse) x => { t with NodeId := x }) .int32 (fun _ => rfl) (fun _ => rfl) (fun _ _ => rfl) (fun _ _ => rfl) (fun _ _ => rfl) : RewriteStep _ (FindCoordinatorResponse.first 3) (FindCoordinatorResponse.first 4) _ _)
    |>.andThen (.field (get := fun (t : FindCoordinatorResponse) => t.Host) (set := fun (t : FindCoordinatorResponse) x => { t with Host := x }) .string (fun _ => rfl) (fun _ => rfl) (fun _ _ => rfl) (fun _ _ => rfl) (fun _ _ => rfl) : RewriteStep _ (FindCoordinatorResponse.first 4) (FindCoordinatorResponse.first 5) _ _)
    |>.andThen (.field (get := fun (t : FindCoordinatorResponse) => t.Port) (set := fun (t : FindCoordinatorResponse) x => { t with Port := x }) .int32 (fun _ => rfl) (fun _ => rfl) (fun _ _ => rfl) (fun _ _ => rfl) (fun _ _ => rfl) : RewriteStep _ (FindCoordinatorResponse.first 5) (FindCoordinatorResponse.first 6) _ _)).whole {} rfl (fun _ => rfl) (fun _ h => ⟨h.1.1.1.2, h.1.2⟩)

theorem rewritesFindCoordinator : ∀ p ∈ typesFindCoordinator, ∀ v, Rewrites (p.1.decode v p.1.zero) (p.2.wire v) (p.2.Fits v) := by
  unfold typesFindCoordinator
  simp only [List.forall_mem_cons]
  exact ⟨FindCoordinatorRequest.rewrites, FindCoordinatorResponse.rewrites, fun _ h => absurd h (by simp)⟩

end Kafka.Msg
