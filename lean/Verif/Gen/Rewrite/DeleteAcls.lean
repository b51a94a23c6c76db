import Verif.Message.Rewrites
import Verif.Gen.Kept.DeleteAcls
import Verif.Gen.All
/-!
Generated by tools/gen_messages.py: encoding DeleteAcls messages that were decoded.
-/
namespace Kafka.Msg

theorem DeleteAclsFilter31.rewrites (version : Int16) : Rewrites (DeleteAclsFilter31.decode version {}) (DeleteAclsFilter31.wire version) (DeleteAclsFilter31.Fits version) :=
  ((.field (get := fun (t : DeleteAclsFilter31) => t.ResourceTypeFilter) (set := fun (t : DeleteAclsFilter31) x => { t with ResourceTypeFilter := x }) .int8 (fun _ => rfl) (fun _ => rfl) (fun _ _ => rfl) (fun _ _ => rfl) (fun _ _ => rfl) : RewriteStep _ (DeleteAclsFilter31.first 0) (DeleteAclsFilter31.first 1) _ _)
    |>.andThen (.field (get := fun (t : DeleteAclsFilter31) => t.ResourceNameFilter) (set := fun (t : DeleteAclsFilter31) x => { t with ResourceNameFilter := x }) .string (fun _ => rfl) (fun _ => rfl) (fun _ _ => rfl) (fun _ _ => rfl) (fun _ _ => rfl) : RewriteStep _ (DeleteAclsFilter31.first 1) (DeleteAclsFilter31.first 2) _ _)
    |>.andThen (.onlyIf (g := version ≥ 1) (.field (get := fun (t : DeleteAclsFilter31) => t.PatternTypeFilter) (set := fun (t : DeleteAclsFilter31) x => { t with PatternTypeFilter := x }) .int8 (fun _ => rfl) (fun _ => rfl) (fun _ _ => rfl) (fun _ _ => rfl) (fun _ _ => rfl)) (fun _ => rfl) : RewriteStep _ (DeleteAclsFilter31.first 2) (DeleteAclsFilter31.first 3) _ _)
    |>.andThen (.field (get := fun (t : DeleteAclsFilter31) => t.PrincipalFilter) (set := fun (t : DeleteAclsFilter31) x => { t with PrincipalFilter := x }) .string (fun _ => rfl) (fun _ => rfl) (fun _ _ => rfl) (fun _ _ => rfl) (fun _ _ => rfl) : RewriteStep _ (DeleteAclsFilter31.first 3) (DeleteAclsFilter31.first 4) _ _)
    |>.andThen (.field (get := fun (t : DeleteAclsFilter31) => t.HostFilter) (set := fun (t : DeleteAclsFilter31) x => { t with HostFilter := x }) .string (fun _ => rfl) (fun _ => rfl) (fun _ _ => rfl) (fun _ _ => rfl) (fun _ _ => rfl) : RewriteStep _ (DeleteAclsFilter31.first 4) (DeleteAclsFilter31.first 5) _ _)
    |>.andThen (.field (get := fun (t : DeleteAclsFilter31) => t.Operation) (set := fun (t : DeleteAclsFilter31) x => { t with Operation := x }) .int8 (fun _ => rfl) (fun _ => rfl) (fun _ _ => rfl) (fun _ _ => rfl) (fun _ _ => rfl) : RewriteStep _ (DeleteAclsFilter31.first 5) (DeleteAclsFilter31.first 6) _ _)
    |>.andThen (.field (get := fun (t : DeleteAclsFilter31) => t.PermissionType) (set := fun (t : DeleteAclsFilter31) x => { t with PermissionType := x }) .int8 (fun _ => rfl) (fun _ => rfl) (fun _ _ => rfl) (fun _ _ => rfl) (fun _ _ => rfl) : RewriteStep _ (DeleteAclsFilter31.first 6) (DeleteAclsFilter31.first 7) _ _)).whole {} rfl (fun _ => rfl) (fun _ h => ⟨h.1.1.1.1.1.2, h.1.1.1.2, h.1.1.2⟩)

theorem DeleteAclsRequest.rewrites (version : Int16) : Rewrites (DeleteAclsRequest.decode version {}) (DeleteAclsRequest.wire version) (DeleteAclsRequest.Fits version) :=
  ((.structs (get := fun (t : DeleteAclsRequest) => t.Filters) (set := fun (t : DeleteAclsRequest) x => { t with Filters := x }) (DeleteAclsFilter31.rewrites version) (fun _ => rfl) (fun _ => rfl) (fun _ => rfl) (fun _ _ => rfl) (fun _ _ => rfl) (fun _ _ => rfl) : RewriteStep _ (DeleteAclsRequest.first 0) (DeleteAclsRequest.first 1) _ _)).whole {} rfl (fun _ => rfl) (fun _ h => ⟨h⟩)

theorem DeleteAclsMatchingAcl31.rewrites (version : Int16) : Rewrites (DeleteAclsMatchingAcl31.decode version {}) (DeleteAclsMatchingAcl31.wire version) (DeleteAclsMatchingAcl31.Fits version) :=
  ((.field (get := fun (t : DeleteAclsMatchingAcl31) => t.ErrorCode) (set := fun (t : DeleteAclsMatchingAcl31) x => { t with ErrorCode := x }) .int16 (fun _ => rfl) (fun _ => rfl) (fun _ _ => rfl) (fun _ _ => rfl) (fun _ _ => rfl) : RewriteStep _ (DeleteAclsMatchingAcl31.first 0) (DeleteAclsMatchingAcl31.first 1) _ _)
    |>.andThen (.field (get := fun (t : DeleteAclsMatchingAcl31) => t.ErrorMessage) (set := fun (t : DeleteAclsMatchingAcl31) x => { t with ErrorMessage := x }) .string (fun _ => rfl) (fun _ => rfl) (fun _ _ => rfl) (fun _ _ => rfl) (fun _ _ => rfl) : RewriteStep _ (DeleteAclsMatchingAcl31.first 1) (DeleteAclsMatchingAcl31.first 2) _ _)
    |>.andThen (.field (get := fun (t : DeleteAclsMatchingAcl31) => t.ResourceType) (set := fun (t : DeleteAclsMatchingAcl31) x => { t with ResourceType := x }) .int8 (fun _ => rfl) (fun _ => rfl) (fun _ _ => rfl) (fun _ _ => rfl) (fun _ _ => rfl) : RewriteStep _ (DeleteAclsMatchingAcl31.first 2) (DeleteAclsMatchingAcl31.first 3) _ _)
    |>.andThen (.field (get := fun (t : DeleteAclsMatchingAcl31) => t.ResourceName) (set := fun (t : DeleteAclsMatchingAcl31) x => { t with ResourceName := x }) .string (fun _ => rfl) (fun _ => rfl) (fun _ _ => rfl) (fun _ _ => rfl) (fun _ _ => rfl) : RewriteStep _ (DeleteAclsMatchingAcl31.first 3) (DeleteAclsMatchingAcl31.first 4) _ _)
    |>.andThen (.onlyIf (g := version ≥ 1) (.field (get := fun (t : DeleteAclsMatchingAcl31) => t.PatternType) (set := fun (t : DeleteAclsMatchingAcl31) x => { t with PatternType := x }) .int8 (fun _ => rfl) (fun _ => rfl) (fun _ _ => rfl) (fun _ _ => rfl) (fun _ _ => rfl)) (fun _ => rfl) : RewriteStep _ (DeleteAclsMatchingAcl31.first 4) (DeleteAclsMatchingAcl31.first 5) _ _)
    |>.andThen (.field (get := fun (t : DeleteAclsMatchingAcl31) => t.Principal) (set := fun (t : DeleteAclsMatchingAcl31) x => { t with Principal := x }) .string (fun _ => rfl) (fun _ => rfl) (fun _ _ => rfl) (fun _ _ => rfl) (fun _ _ => rfl) : RewriteStep _ (DeleteAclsMatchingAcl31.first 5) (DeleteAclsMatchingAcl31.first 6) _ _)
    |>.andThen (.field (get := fun (t : DeleteAclsMatchingAcl31) => t.Host) (set := fun (t : DeleteAclsMatchingAcl31) x => { t with Host := x }) .string (fun _ => rfl) (fun _ => rfl) (fun _ _ => rfl) (fun _ _ => rfl) (fun _ _ => rfl) : RewriteStep _ (DeleteAclsMatchingAcl31.first 6) (DeleteAclsMatchingAcl31.first 7) _ _)
    |>.andThen (.field (get := fun (t : DeleteAclsMatchingAcl31) => t.Operation) (set := fun (t : DeleteAclsMatchingAcl31) x => { t with Operation := x }) .int8 (fun _ => rfl) (fun _ => rfl) (fun _ _ => rfl) (fun _ _ => rfl) (fun _ _ => rfl) : RewriteStep _ (DeleteAclsMatchingAcl31.first 7) (DeleteAclsMatchingAcl31.first 8) _ _)
    |>.andThen (.field (get := fun (t : DeleteAclsMatchingAcl31) => t.PermissionType) (set := fun (t : DeleteAclsMatchingAcl31) x => { t with PermissionType := x }) .int8 (fun _ => rfl) (fun _ => rfl) (fun _ _ => rfl) (fun _ _ => rfl) (fun _ _ => rfl) : RewriteStep _ (DeleteAclsMatchingAcl31.first 8) (DeleteAclsMatchingAcl31.first 9) _ _)).whole {} rfl (fun _ => rfl) (fun _ h => ⟨h.1.1.1.1.1.1.1.2, h.1.1.1.1.1.2, h.1.1.1.2, h.1.1.2⟩)

theorem DeleteAclsFilterResult31.rewrites (version : Int16) : Rewrites (DeleteAclsFilterResult31.decode version {}) (DeleteAclsFilterResult31.wire version) (DeleteAclsFilterResult31.Fits version) :=
  ((.field (get := fun (t : DeleteAclsFilterResult31) => t.ErrorCode) (set := fun (t : DeleteAclsFilterResult31) x => { t with ErrorCode := x }) .int16 (fun _ => rfl) (fun _ => rfl) (fun _ _ => rfl) (fun _ _ => rfl) (fun _ _ => rfl) : RewriteStep _ (DeleteAclsFilterResult31.first 0) (DeleteAclsFilterResult31.first 1) _ _)
    |>.andThen (.field (get := fun (t : DeleteAclsFilterResult31) => t.ErrorMessage) (set := fun (t : DeleteAclsFilterResult31) x => { t with ErrorMessage := x }) .string (fun _ => rfl) (fun _ => rfl) (fun _ _ => rfl) (fun _ _ => rfl) (fun _ _ => rfl) : RewriteStep _ (DeleteAclsFilterResult31.first 1) (DeleteAclsFilterResult31.first 2) _ _)
    |>.andThen (.structs (get := fun (t : DeleteAclsFilterResult31) => t.MatchingAcls) (set := fun (t : DeleteAclsFilterResult31) x => { t with MatchingAcls := x }) (DeleteAclsMatchingAcl31.rewrites version) (fun _ => rfl) (fun _ => rfl) (fun _ => rfl) (fun _ _ => rfl) (fun _ _ => rfl) (fun _ _ => rfl) : RewriteStep _ (DeleteAclsFilterResult31.first 2) (DeleteAclsFilterResult31.first 3) _ _)).whole {} rfl (fun _ => rfl) (fun _ h => ⟨h.1.2, h.2⟩)

theorem DeleteAclsResponse.rewrites (version : Int16) : Rewrites (DeleteAclsResponse.decode version {}) (DeleteAclsResponse.wire version) (DeleteAclsResponse.Fits version) :=
  ((.field (get := fun (t : DeleteAclsResponse) => t.ThrottleTimeMs) (set := fun (t : DeleteAclsResponse) x => { t with ThrottleTimeMs := x }) .int32 (fun _ => rfl) (fun _ => rfl) (fun _ _ => rfl) (fun _ _ => rfl) (fun _ _ => rfl) : RewriteStep _ (DeleteAclsResponse.first 0) (DeleteAclsResponse.first 1) _ _)
    |>.andThen (.structs (get := fun (t : DeleteAclsResponse) => t.FilterResults) (set := fun (t : DeleteAclsResponse) x => { t with FilterResults := x }) (DeleteAclsFilterResult31.rewrites version) (fun _ => rfl) (fun _ => rfl) (fun _ => rfl) (fun _ _ => rfl) (fun _ _ => rfl) (fun _ _ => rfl) : RewriteStep _ (DeleteAclsResponse.first 1) (DeleteAclsResponse.first 2) _ _)).whole {} rfl (fun _ => rfl) (fun _ h => ⟨h.2⟩)

theorem rewritesDeleteAcls : ∀ p ∈ typesDeleteAcls, ∀ v, Rewrites (p.1.decode v p.1.zero) (p.2.wire v) (p.2.Fits v) := by
  unfold typesDeleteAcls
  simp only [List.forall_mem_cons]
  exact ⟨DeleteAclsRequest.rewrites, DeleteAclsFilter31.rewrites, DeleteAclsResponse.rewrites, DeleteAclsFilterResult31.rewrites, DeleteAclsMatchingAcl31.rewrites, fun _ h => absurd h (by simp)⟩

end Kafka.Msg
