import Verif.Message.Rewrites
import Verif.Gen.Kept.IncrementalAlterConfigs
import Verif.Gen.All
/-!
Generated by tools/gen_messages.py: encoding IncrementalAlterConfigs messages that were decoded.
-/
namespace Kafka.Msg

theorem AlterableConfig44.rewrites (version : Int16) : Rewrites (AlterableConfig44.decode version {}) (AlterableConfig44.wire version) (AlterableConfig44.Fits version) :=
  ((.field (get := fun (t : AlterableConfig44) => t.Name) (set := fun (t : AlterableConfig44) x => { t with Name := x }) .string (fun _ => rfl) (fun _ => rfl) (fun _ _ => rfl) (fun _ _ => rfl) (fun _ _ => rfl) : RewriteStep _ (AlterableConfig44.first 0) (AlterableConfig44.first 1) _ _)
    |>.andThen (.field (get := fun (t : AlterableConfig44) => t.ConfigOperation) (set := fun (t : AlterableConfig44) x => { t with ConfigOperation := x }) .int8 (fun _ => rfl) (fun _ => rfl) (fun _ _ => rfl) (fun _ _ => rfl) (fun _ _ => rfl) : RewriteStep _ (AlterableConfig44.first 1) (AlterableConfig44.first 2) _ _)
    |>.andThen (.field (get := fun (t : AlterableConfig44) => t.Value) (set := fun (t : AlterableConfig44) x => { t with Value := x }) .string (fun _ => rfl) (fun _ => rfl) (fun _ _ => rfl) (fun _ _ => rfl) (fun _ _ => rfl) : RewriteStep _ (AlterableConfig44.first 2) (AlterableConfig44.first 3) _ _)).whole {} rfl (fun _ => rfl) (fun _ h => ⟨h.1.1, h.2⟩)

theorem AlterConfigsResource44.rewrites (version : Int16) : Rewrites (AlterConfigsResource44.decode version {}) (AlterConfigsResource44.wire version) (AlterConfigsResource44.Fits version) :=
  ((.field (get := fun (t : AlterConfigsResource44) => t.ResourceType) (set := fun (t : AlterConfigsResource44) x => { t with ResourceType := x }) .int8 (fun _ => rfl) (fun _ => rfl) (fun _ _ => rfl) (fun _ _ => rfl) (fun _ _ => rfl) : RewriteStep _ (AlterConfigsResource44.first 0) (AlterConfigsResource44.first 1) _ _)
    |>.andThen (.field (get := fun (t : AlterConfigsResource44) => t.ResourceName) (set := fun (t : AlterConfigsResource44) x => { t with ResourceName := x }) .string (fun _ => rfl) (fun _ => rfl) (fun _ _ => rfl) (fun _ _ => rfl) (fun _ _ => rfl) : RewriteStep _ (AlterConfigsResource44.first 1) (AlterConfigsResource44.first 2) _ _)
    |>.andThen (.structs (get := fun (t : AlterConfigsResource44) => t.Configs) (set := fun (t : AlterConfigsResource44) x => { t with Configs := x }) (AlterableConfig44.rewrites version) (fun _ => rfl) (fun _ => rfl) (fun _ => rfl) (fun _ _ => rfl) (fun _ _ => rfl) (fun _ _ => rfl) : RewriteStep _ (AlterConfigsResource44.first 2) (AlterConfigsResource44.first 3) _ _)).whole {} rfl (fun _ => rfl) (fun _ h => ⟨h.1.2, h.2⟩)

theorem IncrementalAlterConfigsRequest.rewrites (version : Int16) : Rewrites (IncrementalAlterConfigsRequest.decode version {}) (IncrementalAlterConfigsRequest.wire version) (IncrementalAlterConfigsRequest.Fits version) :=
  ((.structs (get := fun (t : IncrementalAlterConfigsRequest) => t.Resources) (set := fun (t : IncrementalAlterConfigsRequest) x => { t with Resources := x }) (AlterConfigsResource44.rewrites version) (fun _ => rfl) (fun _ => rfl) (fun _ => rfl) (fun _ _ => rfl) (fun _ _ => rfl) (fun _ _ => rfl) : RewriteStep _ (IncrementalAlterConfigsRequest.first 0) (IncrementalAlterConfigsRequest.first 1) _ _)
    |>.andThen (.field (get := fun (t : IncrementalAlterConfigsRequest) => t.ValidateOnly) (set := fun (t : IncrementalAlterConfigsRequest) x => { t with ValidateOnly := x }) .bool (fun _ => rfl) (fun _ => rfl) (fun _ _ => rfl) (fun _ _ => rfl) (fun _ _ => rfl) : RewriteStep _ (IncrementalAlterConfigsRequest.first 1) (IncrementalAlterConfigsRequest.first 2) _ _)).whole {} rfl (fun _ => rfl) (fun _ h => ⟨h.1⟩)

theorem AlterConfigsResourceResponse44.rewrites (version : Int16) : Rewrites (AlterConfigsResourceResponse44.decode version {}) (AlterConfigsResourceResponse44.wire version) (AlterConfigsResourceResponse44.Fits version) :=
  ((.field (get := fun (t : AlterConfigsResourceResponse44) => t.ErrorCode) (set := fun (t : AlterConfigsResourceResponse44) x => { t with ErrorCode := x }) .int16 (fun _ => rfl) (fun _ => rfl) (fun _ _ => rfl) (fun _ _ => rfl) (fun _ _ => rfl) : RewriteStep _ (AlterConfigsResourceResponse44.first 0) (AlterConfigsResourceResponse44.first 1) _ _)
    |>.andThen (.field (get := fun (t : AlterConfigsResourceResponse44) => t.ErrorMessage) (set := fun (t : AlterConfigsResourceResponse44) x => { t with ErrorMessage := x }) .string (fun _ => rfl) (fun _ => rfl) (fun _ _ => rfl) (fun _ _ => rfl) (fun _ _ => rfl) : RewriteStep _ (AlterConfigsResourceResponse44.first 1) (AlterConfigsResourceResponse44.first 2) _ _)
    |>.andThen (.field (get := fun (t : AlterConfigsResourceResponse44) => t.ResourceType) (set := fun (t : AlterConfigsResourceResponse44) x => { t with ResourceType := x }) .int8 (fun _ => rfl) (fun _ => rfl) (fun _ _ => rfl) (fun _ _ => rfl) (fun _ _ => rfl) : RewriteStep _ (AlterConfigsResourceResponse44.first 2) (AlterConfigsResourceResponse44.first 3) _ _)
    |>.andThen (.field (get := fun (t : AlterConfigsResourceResponse44) => t.ResourceName) (set := fun (t : AlterConfigsResourceResponse44) x => { t with ResourceName := x }) .string (fun _ => rfl) (fun _ => rfl) (fun _ _ => rfl) (fun _ _ => rfl) (fun _ _ => rfl) : RewriteStep _ (AlterConfigsResourceResponse44.first 3) (AlterConfigsResourceResponse44.first 4) _ _)).whole {} rfl (fun _ => rfl) (fun _ h => ⟨h.1.1.2, h.2⟩)

theorem IncrementalAlterConfigsResponse.rewrites (version : Int16) : Rewrites (IncrementalAlterConfigsResponse.decode version {}) (IncrementalAlterConfigsResponse.wire version) (IncrementalAlterConfigsResponse.Fits version) :=
  ((.field (get := fun (t : IncrementalAlterConfigsResponse) => t.ThrottleTimeMs) (set := fun (t : IncrementalAlterConfigsResponse) x => { t with ThrottleTimeMs := x }) .int32 (fun _ => rfl) (fun _ => rfl) (fun _ _ => rfl) (fun _ _ => rfl) (fun _ _ => rfl) : RewriteStep _ (IncrementalAlterConfigsResponse.first 0) (IncrementalAlterConfigsResponse.first 1) _ _)
    |>.andThen (.structs (get := fun (t : IncrementalAlterConfigsResponse) => t.Responses) (set := fun (t : IncrementalAlterConfigsResponse) x => { t with Responses := x }) (AlterConfigsResourceResponse44.rewrites version) (fun _ => rfl) (fun _ => rfl) (fun _ => rfl) (fun _ _ => rfl) (fun _ _ => rfl) (fun _ _ => rfl) : RewriteStep _ (IncrementalAlterConfigsResponse.first 1) (IncrementalAlterConfigsResponse.first 2) _ _)).whole {} rfl (fun _ => rfl) (fun _ h => ⟨h.2⟩)

theorem rewritesIncrementalAlterConfigs : ∀ p ∈ typesIncrementalAlterConfigs, ∀ v, Rewrites (p.1.decode v p.1.zero) (p.2.wire v) (p.2.Fits v) := by
  unfold typesIncrementalAlterConfigs
  simp only [List.forall_mem_cons]
  exact ⟨IncrementalAlterConfigsRequest.rewrites, AlterConfigsResource44.rewrites, AlterableConfig44.rewrites, IncrementalAlterConfigsResponse.rewrites, AlterConfigsResourceResponse44.rewrites, fun _ h => absurd h (by simp)⟩

end Kafka.Msg
