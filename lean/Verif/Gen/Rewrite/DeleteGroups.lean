import Verif.Message.Rewrites
import Verif.Gen.Kept.DeleteGroups
import Verif.Gen.All
/-!
Generated by tools/gen_messages.py: encoding DeleteGroups messages that were decoded.
-/
namespace Kafka.Msg

theorem DeleteGroupsRequest.rewrites (version : Int16) : Rewrites (DeleteGroupsRequest.decode version {}) (DeleteGroupsRequest.wire version) (DeleteGroupsRequest.Fits version) :=
  ((.field (get := fun (t : DeleteGroupsRequest) => t.GroupsNames) (set := fun (t : DeleteGroupsRequest) x => { t with GroupsNames := x }) .stringArray (fun _ => rfl) (fun _ => rfl) (fun _ _ => rfl) (fun _ _ => rfl) (fun _ _ => rfl) : RewriteStep _ (DeleteGroupsRequest.first 0) (DeleteGroupsRequest.first 1) _ _)).whole {} rfl (fun _ => rfl) (fun _ h => ⟨h⟩)

theorem DeletableGroupResult42.rewrites (version : Int16) : Rewrites (DeletableGroupResult42.decode version {}) (DeletableGroupResult42.wire version) (DeletableGroupResult42.Fits version) :=
  ((.field (get := fun (t : DeletableGroupResult42) => t.GroupId) (set := fun (t : DeletableGroupResult42) x => { t with GroupId := x }) .string (fun _ => rfl) (fun _ => rfl) (fun _ _ => rfl) (fun _ _ => rfl) (fun _ _ => rfl) : RewriteStep _ (DeletableGroupResult42.first 0) (DeletableGroupResult42.first 1) _ _)
    |>.andThen (.field (get := fun (t : DeletableGroupResult42) => t.ErrorCode) (set := fun (t : DeletableGroupResult42) x => { t with ErrorCode := x }) .int16 (fun _ => rfl) (fun _ => rfl) (fun _ _ => rfl) (fun _ _ => rfl) (fun _ _ => rfl) : RewriteStep _ (DeletableGroupResult42.first 1) (DeletableGroupResult42.first 2) _ _)).whole {} rfl (fun _ => rfl) (fun _ h => ⟨h.1⟩)

theorem DeleteGroupsResponse.rewrites (version : Int16) : Rewrites (DeleteGroupsResponse.decode version {}) (DeleteGroupsResponse.wire version) (DeleteGroupsResponse.Fits version) :=
  ((.field (get := fun (t : DeleteGroupsResponse) => t.ThrottleTimeMs) (set := fun (t : DeleteGroupsResponse) x => { t with ThrottleTimeMs := x }) .int32 (fun _ => rfl) (fun _ => rfl) (fun _ _ => rfl) (fun _ _ => rfl) (fun _ _ => rfl) : RewriteStep _ (DeleteGroupsResponse.first 0) (DeleteGroupsResponse.first 1) _ _)
    |>.andThen (.structs (get := fun (t : DeleteGroupsResponse) => t.Results) (set := fun (t : DeleteGroupsResponse) x => { t with Results := x }) (DeletableGroupResult42.rewrites version) (fun _ => rfl) (fun _ => rfl) (fun _ => rfl) (fun _ _ => rfl) (fun _ _ => rfl) (fun _ _ => rfl) : RewriteStep _ (DeleteGroupsResponse.first 1) (DeleteGroupsResponse.first 2) _ _)).whole {} rfl (fun _ => rfl) (fun _ h => ⟨h.2⟩)

theorem rewritesDeleteGroups : ∀ p ∈ typesDeleteGroups, ∀ v, Rewrites (p.1.decode v p.1.zero) (p.2.wire v) (p.2.Fits v) := by
  unfold typesDeleteGroups
  simp only [List.forall_mem_cons]
  exact ⟨DeleteGroupsRequest.rewrites, DeleteGroupsResponse.rewrites, DeletableGroupResult42.rewrites, fun _ h => absurd h (by simp)⟩

end Kafka.Msg
