import Verif.Message.Rewrites
import Verif.Gen.Kept.CreateAcls
import Verif.Gen.All
/-!
Generated by tools/gen_messages.py: encoding CreateAcls messages that were decoded.
-/
namespace Kafka.Msg

theorem CreatableAcl30.rewrites (version : Int16) : Rewrites (CreatableAcl30.decode version {}) (CreatableAcl30.wire version) (CreatableAcl30.Fits version) :=
  ((.field (get := fun (t : CreatableAcl30) => t.ResourceType) (set := fun (t : CreatableAcl30) x => { t with ResourceType := x }) .int8 (fun _ => rfl) (fun _ => rfl) (fun _ _ => rfl) (fun _ _ => rfl) (fun _ _ => rfl) : RewriteStep _ (CreatableAcl30.first 0) (CreatableAcl30.first 1) _ _)
    |>.andThen (.field (get := fun (t : CreatableAcl30) => t.ResourceName) (set := fun (t : CreatableAcl30) x => { t with ResourceName := x }) .string (fun _ => rfl) (fun _ => rfl) (fun _ _ => rfl) (fun _ _ => rfl) (fun _ _ => rfl) : RewriteStep _ (CreatableAcl30.first 1) (CreatableAcl30.first 2) _ _)
    |>.andThen (.onlyIf (g := version ≥ 1) (.field (get := fun (t : CreatableAcl30) => t.ResourcePatternType) (set := fun (t : CreatableAcl30) x => { t with ResourcePatternType := x }) .int8 (fun _ => rfl) (fun _ => rfl) (fun _ _ => rfl) (fun _ _ => rfl) (fun _ _ => rfl)) (fun _ => rfl) : RewriteStep _ (CreatableAcl30.first 2) (CreatableAcl30.first 3) _ _)
    |>.andThen (.field (get := fun (t : CreatableAcl30) => t.Principal) (set := fun (t : CreatableAcl30) x => { t with Principal := x }) .string (fun _ => rfl) (fun _ => rfl) (fun _ _ => rfl) (fun _ _ => rfl) (fun _ _ => rfl) : RewriteStep _ (CreatableAcl30.first 3) (CreatableAcl30.first 4) _ _)
    |>.andThen (.field (get := fun (t : CreatableAcl30) => t.Host) (set := fun (t : CreatableAcl30) x => { t with Host := x }) .string (fun _ => rfl) (fun _ => rfl) (fun _ _ => rfl) (fun _ _ => rfl) (fun _ _ => rfl) : RewriteStep _ (CreatableAcl30.first 4) (CreatableAcl30.first 5) _ _)
    |>.andThen (.field (get := fun (t : CreatableAcl30) => t.Operation) (set := fun (t : CreatableAcl30) x => { t with Operation := x }) .int8 (fun _ => rfl) (fun _ => rfl) (fun _ _ => rfl) (fun _ _ => rfl) (fun _ _ => rfl) : RewriteStep _ (CreatableAcl30.first 5) (CreatableAcl30.first 6) _ _)
    |>.andThen (.field (get := fun (t : CreatableAcl30) => t.PermissionType) (set := fun (t : CreatableAcl30) x => { t with PermissionType := x }) .int8 (fun _ => rfl) (fun _ => rfl) (fun _ _ => rfl) (fun _ _ => rfl) (fun _ _ => rfl) : RewriteStep _ (CreatableAcl30.first 6) (CreatableAcl30.first 7) _ _)).whole {} rfl (fun _ => rfl) (fun _ h => ⟨h.1.1.1.1.1.2, h.1.1.1.2, h.1.1.2⟩)

theorem CreateAclsRequest.rewrites (version : Int16) : Rewrites (CreateAclsRequest.decode version {}) (CreateAclsRequest.wire version) (CreateAclsRequest.Fits version) :=
  ((.structs (get := fun (t : CreateAclsRequest) => t.Creations) (set := fun (t : CreateAclsRequest) x => { t with Creations := x }) (CreatableAcl30.rewrites version) (fun _ => rfl) (fun _ => rfl) (fun _ => rfl) (fun _ _ => rfl) (fun _ _ => rfl) (fun _ _ => rfl) : RewriteStep _ (CreateAclsRequest.first 0) (CreateAclsRequest.first 1) _ _)).whole {} rfl (fun _ => rfl) (fun _ h => ⟨h⟩)

theorem CreatableAclResult30.rewrites (version : Int16) : Rewrites (CreatableAclResult30.decode version {}) (CreatableAclResult30.wire version) (CreatableAclResult30.Fits version) :=
  ((.field (get := fun (t : CreatableAclResult30) => t.ErrorCode) (set := fun (t : CreatableAclResult30) x => { t with ErrorCode := x }) .int16 (fun _ => rfl) (fun _ => rfl) (fun _ _ => rfl) (fun _ _ => rfl) (fun _ _ => rfl) : RewriteStep _ (CreatableAclResult30.first 0) (CreatableAclResult30.first 1) _ _)
    |>.andThen (.field (get := fun (t : CreatableAclResult30) => t.ErrorMessage) (set := fun (t : CreatableAclResult30) x => { t with ErrorMessage := x }) .string (fun _ => rfl) (fun _ => rfl) (fun _ _ => rfl) (fun _ _ => rfl) (fun _ _ => rfl) : RewriteStep _ (CreatableAclResult30.first 1) (CreatableAclResult30.first 2) _ _)).whole {} rfl (fun _ => rfl) (fun _ h => ⟨h.2⟩)

theorem CreateAclsResponse.rewrites (version : Int16) : Rewrites (CreateAclsResponse.decode version {}) (CreateAclsResponse.wire version) (CreateAclsResponse.Fits version) :=
  ((.field (get := fun (t : CreateAclsResponse) => t.ThrottleTimeMs) (set := fun (t : CreateAclsResponse) x => { t with ThrottleTimeMs := x }) .int32 (fun _ => rfl) (fun _ => rfl) (fun _ _ => rfl) (fun _ _ => rfl) (fun _ _ => rfl) : RewriteStep _ (CreateAclsResponse.first 0) (CreateAclsResponse.first 1) _ _)
    |>.andThen (.structs (get := fun (t : CreateAclsResponse) => t.Results) (set := fun (t : CreateAclsResponse) x => { t with Results := x }) (CreatableAclResult30.rewrites version) (fun _ => rfl) (fun _ => rfl) (fun _ => rfl) (fun _ _ => rfl) (fun _ _ => rfl) (fun _ _ => rfl) : RewriteStep _ (CreateAclsResponse.first 1) (CreateAclsResponse.first 2) _ _)).whole {} rfl (fun _ => rfl) (fun _ h => ⟨h.2⟩)

theorem rewritesCreateAcls : ∀ p ∈ typesCreateAcls, ∀ v, Rewrites (p.1.decode v p.1.zero) (p.2.wire v) (p.2.Fits v) := by
  unfold typesCreateAcls
  simp only [List.forall_mem_cons]
  exact ⟨CreateAclsRequest.rewrites, CreatableAcl30.rewrites, CreateAclsResponse.rewrites, CreatableAclResult30.rewrites, fun _ h => absurd h (by simp)⟩

end Kafka.Msg
