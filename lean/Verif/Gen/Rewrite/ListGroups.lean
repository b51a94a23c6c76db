import Verif.Message.Rewrites
import Verif.Gen.Kept.ListGroups
import Verif.Gen.All
/-!
Generated by tools/gen_messages.py: encoding ListGroups messages that were decoded.
-/
namespace Kafka.Msg

theorem ListGroupsRequest.rewrites (version : Int16) : Rewrites (ListGroupsRequest.decode version {}) (ListGroupsRequest.wire version) (ListGroupsRequest.Fits version) :=
  ((.nop (fun _ => rfl) : RewriteStep _ (ListGroupsRequest.first 0) (ListGroupsRequest.first 0) _ _)).whole {} rfl (fun _ => rfl) (fun _ _ => trivial)

theorem ListedGroup16.rewrites (version : Int16) : Rewrites (ListedGroup16.decode version {}) (ListedGroup16.wire version) (ListedGroup16.Fits version) :=
  ((.field (get := fun (t : ListedGroup16) => t.GroupId) (set := fun (t : ListedGroup16) x => { t with GroupId := x }) .string (fun _ => rfl) (fun _ => rfl) (fun _ _ => rfl) (fun _ _ => rfl) (fun _ _ => rfl) : RewriteStep _ (ListedGroup16.first 0) (ListedGroup16.first 1) _ _)
    |>.andThen (.field (get := fun (t : ListedGroup16) => t.ProtocolType) (set := fun (t : ListedGroup16) x => { t with ProtocolType := x }) .string (fun _ => rfl) (fun _ => rfl) (fun _ _ => rfl) (fun _ _ => rfl) (fun _ _ => rfl) : RewriteStep _ (ListedGroup16.first 1) (ListedGroup16.first 2) _ _)).whole {} rfl (fun _ => rfl) (fun _ h => ⟨h.1, h.2⟩)

theorem ListGroupsResponse.rewrites (version : Int16) : Rewrites (ListGroupsResponse.decode version {}) (ListGroupsResponse.wire version) (ListGroupsResponse.Fits version) :=
  ((.onlyIf (g := version ≥ 1) (.field (get := fun (t : ListGroupsResponse) => t.ThrottleTimeMs) (set := fun (t : ListGroupsResponse) x => { t with ThrottleTimeMs := x }) .int32 (fun _ => rfl) (fun _ => rfl) (fun _ _ => rfl) (fun _ _ => rfl) (fun _ _ => rfl)) (fun _ => rfl) : RewriteStep _ (ListGroupsResponse.first 0) (ListGroupsResponse.first 1) _ _)
    |>.andThen (.field (get := fun (t : ListGroupsResponse) => t.ErrorCode) (set := fun (t : ListGroupsResponse) x => { t with ErrorCode := x }) .int16 (fun _ => rfl) (fun _ => rfl) (fun _ _ => rfl) (fun _ _ => rfl) (fun _ _ => rfl) : RewriteStep _ (ListGroupsResponse.first 1) (ListGroupsResponse.first 2) _ _)
    |>.andThen (.structs (get := fun (t : ListGroupsResponse) => t.Groups) (set := fun (t : ListGroupsResponse) x => { t with Groups := x }) (ListedGroup16.rewrites version) (fun _ => rfl) (fun _ => rfl) (fun _ => rfl) (fun _ _ => rfl) (fun _ _ => rfl) (fun _ _ => rfl) : RewriteStep _ (ListGroupsResponse.first 2) (ListGroupsResponse.first 3) _ _)).whole {} rfl (fun _ => rfl) (fun _ h => ⟨h.2⟩)

theorem rewritesListGroups : ∀ p ∈ typesListGroups, ∀ v, Rewrites (p.1.decode v p.1.zero) (p.2.wire v) (p.2.Fits v) := by
  unfold typesListGroups
  simp only [List.forall_mem_cons]
  exact ⟨ListGroupsRequest.rewrites, ListGroupsResponse.rewrites, ListedGroup16.rewrites, fun _ h => absurd h (by simp)⟩

end Kafka.Msg
