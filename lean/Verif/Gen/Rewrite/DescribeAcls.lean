import Verif.Message.Rewrites
import Verif.Gen.Kept.DescribeAcls
import Verif.Gen.All
/-!
Generated by tools/gen_messages.py: encoding DescribeAcls messages that were decoded.
-/
namespace Kafka.Msg

theorem DescribeAclsRequest.rewrites (version : Int16) : Rewrites (DescribeAclsRequest.decode version {}) (DescribeAclsRequest.wire version) (DescribeAclsRequest.Fits version) :=
  ((.field (get := fun (t : DescribeAclsRequest) => t.ResourceType) (set := fun (t : DescribeAclsRequest) x => { t with ResourceType := x }) .int8 (fun _ => rfl) (fun _ => rfl) (fun _ _ => rfl) (fun _ _ => rfl) (fun _ _ => rfl) : RewriteStep _ (DescribeAclsRequest.first 0) (DescribeAclsRequest.first 1) _ _)
    |>.andThen (.field (get := fun (t : DescribeAclsRequest) => t.ResourceNameFilter) (set := fun (t : DescribeAclsRequest) x => { t with ResourceNameFilter := x }) .string (fun _ => rfl) (fun _ => rfl) (fun _ _ => rfl) (fun _ _ => rfl) (fun _ _ => rfl) : RewriteStep _ (DescribeAclsRequest.first 1) (DescribeAclsRequest.first 2) _ _)
    |>.andThen (.onlyIf (g := version ≥ 1) (.field (get := fun (t : DescribeAclsRequest) => t.ResourcePatternType) (set := fun (t : DescribeAclsRequest) x => { t with ResourcePatternType := x }) .int8 (fun _ => rfl) (fun _ => rfl) (fun _ _ => rfl) (fun _ _ => rfl) (fun _ _ => rfl)) (fun _ => rfl) : RewriteStep _ (DescribeAclsRequest.first 2) (DescribeAclsRequest.first 3) _ _)
    |>.andThen (.field (get := fun (t : DescribeAclsRequest) => t.PrincipalFilter) (set := fun (t : DescribeAclsRequest) x => { t with PrincipalFilter := x }) .string (fun _ => rfl) (fun _ => rfl) (fun _ _ => rfl) (fun _ _ => rfl) (fun _ _ => rfl) : RewriteStep _ (DescribeAclsRequest.first 3) (DescribeAclsRequest.first 4) _ _)
    |>.andThen (.field (get := fun (t : DescribeAclsRequest) => t.HostFilter) (set := fun (t : DescribeAclsRequest) x => { t with HostFilter := x }) .string (fun _ => rfl) (fun _ => rfl) (fun _ _ => rfl) (fun _ _ => rfl) (fun _ _ => rfl) : RewriteStep _ (DescribeAclsRequest.first 4) (DescribeAclsRequest.first 5) _ _)
    |>.andThen (.field (get := fun (t : DescribeAclsRequest) => t.Operation) (set := fun (t : DescribeAclsRequest) x => { t with Operation := x }) .int8 (fun _ => rfl) (fun _ => rfl) (fun _ _ => rfl) (fun _ _ => rfl) (fun _ _ => rfl) : RewriteStep _ (DescribeAclsRequest.first 5) (DescribeAclsRequest.first 6) _ _)
    |>.andThen (.field (get := fun (t : DescribeAclsRequest) => t.PermissionType) (set := fun (t : DescribeAclsRequest) x => { t with PermissionType := x }) .int8 (fun _ => rfl) (fun _ => rfl) (fun _ _ => rfl) (fun _ _ => rfl) (fun _ _ => rfl) : RewriteStep _ (DescribeAclsRequest.first 6) (DescribeAclsRequest.first 7) _ _)).whole {} rfl (fun _ => rfl) (fun _ h => ⟨h.1.1.1.1.1.2, h.1.1.1.2, h.1.1.2⟩)

theorem AclDescription29.rewrites (version : Int16) : Rewrites (AclDescription29.decode version {}) (AclDescription29.wire version) (AclDescription29.Fits version) :=
  ((.field (get := fun (t : AclDescription29) => t.Principal) (set := fun (t : AclDescription29) x => { t with Principal := x }) .string (fun _ => rfl) (fun _ => rfl) (fun _ _ => rfl) (fun _ _ => rfl) (fun _ _ => rfl) : RewriteStep _ (AclDescription29.first 0) (AclDescription29.first 1) _ _)
    |>.andThen (.field (get := fun (t : AclDescription29) => t.Host) (set := fun (t : AclDescription29) x => { t with Host := x }) .string (fun _ => rfl) (fun _ => rfl) (fun _ _ => rfl) (fun _ _ => rfl) (fun _ _ => rfl) : RewriteStep _ (AclDescription29.first 1) (AclDescription29.first 2) _ _)
    |>.andThen (.field (get := fun (t : AclDescription29) => t.Operation) (set := fun (t : AclDescription29) x => { t with Operation := x }) .int8 (fun _ => rfl) (fun _ => rfl) (fun _ _ => rfl) (fun _ _ => rfl) (fun _ _ => rfl) : RewriteStep _ (AclDescription29.first 2) (AclDescription29.first 3) _ _)
    |>.andThen (.field (get := fun (t : AclDescription29) => t.PermissionType) (set := fun (t : AclDescription29) x => { t with PermissionType := x }) .int8 (fun _ => rfl) (fun _ => rfl) (fun _ _ => rfl) (fun _ _ => rfl) (fun _ _ => rfl) : RewriteStep _ (AclDescription29.first 3) (AclDescription29.first 4) _ _)).whole {} rfl (fun _ => rfl) (fun _ h => ⟨h.1.1.1, h.1.1.2⟩)

theorem DescribeAclsResource29.rewrites (version : Int16) : Rewrites (DescribeAclsResource29.decode version {}) (DescribeAclsResource29.wire version) (DescribeAclsResource29.Fits version) :=
  ((.field (get := fun (t : DescribeAclsResource29) => t.«Type») (set := fun (t : DescribeAclsResource29) x => { t with «Type» := x }) .int8 (fun _ => rfl) (fun _ => rfl) (fun _ _ => rfl) (fun _ _ => rfl) (fun _ _ => rfl) : RewriteStep _ (DescribeAclsResource29.first 0) (DescribeAclsResource29.first 1) _ _)
    |>.andThen (.field (get := fun (t : DescribeAclsResource29) => t.Name) (set := fun (t : DescribeAclsResource29) x => { t with Name := x }) .string (fun _ => rfl) (fun _ => rfl) (fun _ _ => rfl) (fun _ _ => rfl) (fun _ _ => rfl) : RewriteStep _ (DescribeAclsResource29.first 1) (DescribeAclsResource29.first 2) _ _)
    |>.andThen (.onlyIf (g := version ≥ 1) (.field (get := fun (t : DescribeAclsResource29) => t.PatternType) (set := fun (t : DescribeAclsResource29) x => { t with PatternType := x }) .int8 (fun _ => rfl) (fun _ => rfl) (fun _ _ => rfl) (fun _ _ => rfl) (fun _ _ => rfl)) (fun _ => rfl) : RewriteStep _ (DescribeAclsResource29.first 2) (DescribeAclsResource29.first 3) _ _)
    |>.andThen (.structs (get := fun (t : DescribeAclsResource29) => t.Acls) (set := fun (t : DescribeAclsResource29) x => { t with Acls := x }) (AclDescription29.rewrites version) (fun _ => rfl) (fun _ => rfl) (fun _ => rfl) (fun _ _ => rfl) (fun _ _ => rfl) (fun _ _ => rfl) : RewriteStep _ (DescribeAclsResource29.first 3) (DescribeAclsResource29.first 4) _ _)).whole {} rfl (fun _ => rfl) (fun _ h => ⟨h.1.1.2, h.2⟩)

theorem DescribeAclsResponse.rewrites (version : Int16) : Rewrites (DescribeAclsResponse.decode version {}) (DescribeAclsResponse.wire version) (DescribeAclsResponse.Fits version) :=
  ((.field (get := fun (t : DescribeAclsResponse) => t.ThrottleTimeMs) (set := fun (t : DescribeAclsResponse) x => { t with ThrottleTimeMs := x }) .int32 (fun _ => rfl) (fun _ => rfl) (fun _ _ => rfl) (fun _ _ => rfl) (fun _ _ => rfl) : RewriteStep _ (DescribeAclsResponse.first 0) (DescribeAclsResponse.first 1) _ _)
    |>.andThen (.field (get := fun (t : DescribeAclsResponse) => t.ErrorCode) (set := fun (t : DescribeAclsResponse) x => { t with ErrorCode := x }) .int16 (fun _ => rfl) (fun _ => rfl) (fun _ _ => rfl) (fun _ _ => rfl) (fun _ _ => rfl) : RewriteStep _ (DescribeAclsResponse.first 1) (DescribeAclsResponse.first 2) _ _)
    |>.andThen (.field (get := fun (t : DescribeAclsResponse) => t.ErrorMessage) (set := fun (t : DescribeAclsResponse) x => { t with ErrorMessage := x }) .string (fun _ => rfl) (fun _ => rfl) (fun _ _ => rfl) (fun _ _ => rfl) (fun _ _ => rfl) : RewriteStep _ (DescribeAclsResponse.first 2) (DescribeAclsResponse.first 3) _ _)
    |>.andThen (.structs (get := fun (t : DescribeAclsResponse) => t.Resources) (set := fun (t : DescribeAclsResponse) x => { t with Resources := x }) (DescribeAclsResource29.rewrites version) (fun _ => rfl) (fun _ => rfl) (fun _ => rfl) (fun _ _ => rfl) (fun _ _ => rfl) (fun _ _ => rfl) : RewriteStep _ (DescribeAclsResponse.first 3) (DescribeAclsResponse.first 4) _ _)).whole {} rfl (fun _ => rfl) (fun _ h => ⟨h.1.2, h.2⟩)

theorem rewritesDescribeAcls : ∀ p ∈ typesDescribeAcls, ∀ v, Rewrites (p.1.decode v p.1.zero) (p.2.wire v) (p.2.Fits v) := by
  unfold typesDescribeAcls
  simp only [List.forall_mem_cons]
  exact ⟨DescribeAclsRequest.rewrites, DescribeAclsResponse.rewrites, DescribeAclsResource29.rewrites, AclDescription29.rewrites, fun _ h => absurd h (by simp)⟩

end Kafka.Msg
