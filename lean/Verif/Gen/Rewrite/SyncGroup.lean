import Verif.Message.Rewrites
import Verif.Gen.Kept.SyncGroup
import Verif.Gen.All
/-!
Generated by tools/gen_messages.py: encoding SyncGroup messages that were decoded.
-/
namespace Kafka.Msg

theorem SyncGroupRequestAssignment14.rewrites (version : Int16) : Rewrites (SyncGroupRequestAssignment14.decode version {}) (SyncGroupRequestAssignment14.wire version) (SyncGroupRequestAssignment14.Fits version) :=
  ((.field (get := fun (t : SyncGroupRequestAssignment14) => t.MemberId) (set := fun (t : SyncGroupRequestAssignment14) x => { t with MemberId := x }) .string (fun _ => rfl) (fun _ => rfl) (fun _ _ => rfl) (fun _ _ => rfl) (fun _ _ => rfl) : RewriteStep _ (SyncGroupRequestAssignment14.first 0) (SyncGroupRequestAssignment14.first 1) _ _)
    |>.andThen (.field (get := fun (t : SyncGroupRequestAssignment14) => t.Assignment) (set := fun (t : SyncGroupRequestAssignment14) x => { t with Assignment := x }) .bytes (fun _ => rfl) (fun _ => rfl) (fun _ _ => rfl) (fun _ _ => rfl) (fun _ _ => rfl) : RewriteStep _ (SyncGroupRequestAssignment14.first 1) (SyncGroupRequestAssignment14.first 2) _ _)).whole {} rfl (fun _ => rfl) (fun _ h => ⟨h.1, h.2⟩)

theorem SyncGroupRequest.rewrites (version : Int16) : Rewrites (SyncGroupRequest.decode version {}) (SyncGroupRequest.wire version) (SyncGroupRequest.Fits version) :=
  ((.field (get := fun (t : SyncGroupRequest) => t.GroupId) (set := fun (t : SyncGroupRequest) x => { t with GroupId := x }) .string (fun _ => rfl) (fun _ => rfl) (fun _ _ => rfl) (fun _ _ => rfl) (fun _ _ => rfl) : RewriteStep _ (SyncGroupRequest.first 0) (SyncGroupRequest.first 1) _ _)
    |>.andThen (.field (get := fun (t : SyncGroupRequest) => t.GenerationId) (set := fun (t : SyncGroupRequest) x => { t with GenerationId := x }) .int32 (fun _ => rfl) (fun _ => rfl) (fun _ _ => rfl) (fun _ _ => rfl) (fun _ _ => rfl) : RewriteStep _ (SyncGroupRequest.first 1) (SyncGroupRequest.first 2) _ _)
    |>.andThen (.field (get := fun (t : SyncGroupRequest) => t.MemberId) (set := fun (t : SyncGroupRequest) x => { t with MemberId := x }) .string (fun _ => rfl) (fun _ => rfl) (fun _ _ => rfl) (fun _ _ => rfl) (fun _ _ => rfl) : RewriteStep _ (SyncGroupRequest.first 2) (SyncGroupRequest.first 3) _ _)
    |>.andThen (.onlyIf (g := version ≥ 3) (.field (get := fun (t : SyncGroupRequest) => t.GroupInstanceId) (set := fun (t : SyncGroupRequest) x => { t with GroupInstanceId := x }) .string (fun _ => rfl) (fun _ => rfl) (fun _ _ => rfl) (fun _ _ => rfl) (fun _ _ => rfl)) (fun _ => rfl) : RewriteStep _ (SyncGroupRequest.first 3) (SyncGroupRequest.first 4) _ _)
    |>.andThen (.structs (get := fun (t : SyncGroupRequest) => t.Assignments) (set := fun (t : SyncGroupRequest) x => { t with Assignments := x }) (SyncGroupRequestAssignment14.rewrites version) (fun _ => rfl) (fun _ => rfl) (fun _ => rfl) (fun _ _ => rfl) (fun _ _ => rfl) (fun _ _ => rfl) : RewriteStep _ (SyncGroupRequest.first 4) (SyncGroupRequest.first 5) _ _)).whole {} rfl (fun _ => rfl) (fun _ h => ⟨h.1.1.1.1, h.1.1.2, h.1.2, h.2⟩)

theorem SyncGroupResponse.rewrites (version : Int16) : Rewrites (SyncGroupResponse.decode version {}) (SyncGroupResponse.wire version) (SyncGroupResponse.Fits version) :=
  ((.onlyIf (g := version ≥ 1) (.field (get := fun (t : SyncGroupResponse) => t.ThrottleTimeMs) (set := fun (t : SyncGroupResponse) x => { t with ThrottleTimeMs := x }) .int32 (fun _ => rfl) (fun _ => rfl) (fun _ _ => rfl) (fun _ _ => rfl) (fun _ _ => rfl)) (fun _ => rfl) : RewriteStep _ (SyncGroupResponse.first 0) (SyncGroupResponse.first 1) _ _)
    |>.andThen (.field (get := fun (t : SyncGroupResponse) => t.ErrorCode) (set := fun (t : SyncGroupResponse) x => { t with ErrorCode := x }) .int16 (fun _ => rfl) (fun _ => rfl) (fun _ _ => rfl) (fun _ _ => rfl) (fun _ _ => rfl) : RewriteStep _ (SyncGroupResponse.first 1) (SyncGroupResponse.first 2) _ _)
    |>.andThen (.field (get := fun (t : SyncGroupResponse) => t.Assignment) (set := fun (t : SyncGroupResponse) x => { t with Assignment := x }) .bytes (fun _ => rfl) (fun _ => rfl) (fun _ _ => rfl) (fun _ _ => rfl) (fun _ _ => rfl) : RewriteStep _ (SyncGroupResponse.first 2) (SyncGroupResponse.first 3) _ _)).whole {} rfl (fun _ => rfl) (fun _ h => ⟨h.2⟩)

theorem rewritesSyncGroup : ∀ p ∈ typesSyncGroup, ∀ v, Rewrites (p.1.decode v p.1.zero) (p.2.wire v) (p.2.Fits v) := by
  unfold typesSyncGroup
  simp only [List.forall_mem_cons]
  exact ⟨SyncGroupRequest.rewrites, SyncGroupRequestAssignment14.rewrites, SyncGroupResponse.rewrites, fun _ h => absurd h (by simp)⟩

end Kafka.Msg
