import Verif.Message.Rewrites
import Verif.Gen.Kept.LeaveGroup
import Verif.Gen.All
/-!
Generated by tools/gen_messages.py: encoding LeaveGroup messages that were decoded.
-/
namespace Kafka.Msg

theorem MemberIdentity13.rewrites (version : Int16) : Rewrites (MemberIdentity13.decode version {}) (MemberIdentity13.wire version) (MemberIdentity13.Fits version) :=
  ((.onlyIf (g := version ≥ 3) (.field (get := fun (t : MemberIdentity13) => t.MemberId) (set := fun (t : MemberIdentity13) x => { t with MemberId := x }) .string (fun _ => rfl) (fun _ => rfl) (fun _ _ => rfl) (fun _ _ => rfl) (fun _ _ => rfl)) (fun _ => rfl) : RewriteStep _ (MemberIdentity13.first 0) (MemberIdentity13.first 1) _ _)
    |>.andThen (.onlyIf (g := version ≥ 3) (.field (get := fun (t : MemberIdentity13) => t.GroupInstanceId) (set := fun (t : MemberIdentity13) x => { t with GroupInstanceId := x }) .string (fun _ => rfl) (fun _ => rfl) (fun _ _ => rfl) (fun _ _ => rfl) (fun _ _ => rfl)) (fun _ => rfl) : RewriteStep _ (MemberIdentity13.first 1) (MemberIdentity13.first 2) _ _)).whole {} rfl (fun _ => rfl) (fun _ h => ⟨h.1, h.2⟩)

theorem LeaveGroupRequest.rewrites (version : Int16) : Rewrites (LeaveGroupRequest.decode version {}) (LeaveGroupRequest.wire version) (LeaveGroupRequest.Fits version) :=
  ((.field (get := fun (t : LeaveGroupRequest) => t.GroupId) (set := fun (t : LeaveGroupRequest) x => { t with GroupId := x }) .string (fun _ => rfl) (fun _ => rfl) (fun _ _ => rfl) (fun _ _ => rfl) (fun _ _ => rfl) : RewriteStep _ (LeaveGroupRequest.first 0) (LeaveGroupRequest.first 1) _ _)
    |>.andThen (.onlyIf (g := version ≥ 0 ∧ version ≤ 2) (.field (get := fun (t : LeaveGroupRequest) => t.MemberId) (set := fun (t : LeaveGroupRequest) x => { t with MemberId := x }) .string (fun _ => rfl) (fun _ => rfl) (fun _ _ => rfl) (fun _ _ => rfl) (fun _ _ => rfl)) (fun _ => rfl) : RewriteStep _ (LeaveGroupRequest.first 1) (LeaveGroupRequest.first 2) _ _)
    |>.andThen (.onlyIf (g := version ≥ 3) (.structs (get := fun (t : LeaveGroupRequest) => t.Members) (set := fun (t : LeaveGroupRequest) x => { t with Members := x }) (MemberIdentity13.rewrites version) (fun _ => rfl) (fun _ => rfl) (fun _ => rfl) (fun _ _ => rfl) (fun _ _ => rfl) (fun _ _ => rfl)) (fun _ => rfl) : RewriteStep _ (LeaveGroupRequest.first 2) (LeaveGroupRequest.first 3) _ _)).whole {} rfl (fun _ => rfl) (fun _ h => ⟨h.1.1, h.1.2, h.2⟩)

theorem MemberResponse13.rewrites (version : Int16) : Rewrites (MemberResponse13.decode version {}) (MemberResponse13.wire version) (MemberResponse13.Fits version) :=
  ((.onlyIf (g := version ≥ 3) (.field (get := fun (t : MemberResponse13) => t.MemberId) (set := fun (t : MemberResponse13) x => { t with MemberId := x }) .string (fun _ => rfl) (fun _ => rfl) (fun _ _ => rfl) (fun _ _ => rfl) (fun _ _ => rfl)) (fun _ => rfl) : RewriteStep _ (MemberResponse13.first 0) (MemberResponse13.first 1) _ _)
    |>.andThen (.onlyIf (g := version ≥ 3) (.field (get := fun (t : MemberResponse13) => t.GroupInstanceId) (set := fun (t : MemberResponse13) x => { t with GroupInstanceId := x }) .string (fun _ => rfl) (fun _ => rfl) (fun _ _ => rfl) (fun _ _ => rfl) (fun _ _ => rfl)) (fun _ => rfl) : RewriteStep _ (MemberResponse13.first 1) (MemberResponse13.first 2) _ _)
    |>.andThen (.onlyIf (g := version ≥ 3) (.field (get := fun (t : MemberResponse13) => t.ErrorCode) (set := fun (t : MemberResponse13) x => { t with ErrorCode := x }) .int16 (fun _ => rfl) (fun _ => rfl) (fun _ _ => rfl) (fun _ _ => rfl) (fun _ _ => rfl)) (fun _ => rfl) : RewriteStep _ (MemberResponse13.first 2) (MemberResponse13.first 3) _ _)).whole {} rfl (fun _ => rfl) (fun _ h => ⟨h.1.1, h.1.2⟩)

theorem LeaveGroupResponse.rewrites (version : Int16) : Rewrites (LeaveGroupResponse.decode version {}) (LeaveGroupResponse.wire version) (LeaveGroupResponse.Fits version) :=
  ((.onlyIf (g := version ≥ 1) (.field (get := fun (t : LeaveGroupResponse) => t.ThrottleTimeMs) (set := fun (t : LeaveGroupResponse) x => { t with ThrottleTimeMs := x }) .int32 (fun _ => rfl) (fun _ => rfl) (fun _ _ => rfl) (fun _ _ => rfl) (fun _ _ => rfl)) (fun _ => rfl) : RewriteStep _ (LeaveGroupResponse.first 0) (LeaveGroupResponse.first 1) _ _)
    |>.andThen (.field (get := fun (t : LeaveGroupResponse) => t.ErrorCode) (set := fun (t : LeaveGroupResponse) x => { t with ErrorCode := x }) .int16 (fun _ => rfl) (fun _ => rfl) (fun _ _ => rfl) (fun _ _ => rfl) (fun _ _ => rfl) : RewriteStep _ (LeaveGroupResponse.first 1) (LeaveGroupResponse.first 2) _ _)
    |>.andThen (.onlyIf (g := version ≥ 3) (.structs (get := fun (t : LeaveGroupResponse) => t.Members) (set := fun (t : LeaveGroupResponse) x => { t with Members := x }) (MemberResponse13.rewrites version) (fun _ => rfl) (fun _ => rfl) (fun _ => rfl) (fun _ _ => rfl) (fun _ _ => rfl) (fun _ _ => rfl)) (fun _ => rfl) : RewriteStep _ (LeaveGroupResponse.first 2) (LeaveGroupResponse.first 3) _ _)).whole {} rfl (fun _ => rfl) (fun _ h => ⟨h.2⟩)

theorem rewritesLeaveGroup : ∀ p ∈ typesLeaveGroup, ∀ v, Rewrites (p.1.decode v p.1.zero) (p.2.wire v) (p.2.Fits v) := by
  unfold typesLeaveGroup
  simp only [List.forall_mem_cons]
  exact ⟨LeaveGroupRequest.rewrites, MemberIdentity13.rewrites, LeaveGroupResponse.rewrites, MemberResponse13.rewrites, fun _ h => absurd h (by simp)⟩

end Kafka.Msg
