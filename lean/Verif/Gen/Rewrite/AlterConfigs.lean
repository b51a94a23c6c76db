import Verif.Message.Rewrites
import Verif.Gen.Kept.AlterConfigs
import Verif.Gen.All
/-!
Generated by tools/gen_messages.py: encoding AlterConfigs messages that were decoded.
-/
namespace Kafka.Msg

theorem AlterableConfig33.rewrites (version : Int16) : Rewrites (AlterableConfig33.decode version {}) (AlterableConfig33.wire version) (AlterableConfig33.Fits version) :=
  ((.field (get := fun (t : AlterableConfig33) => t.Name) (set := fun (t : AlterableConfig33) x => { t with Name := x }) .string (fun _ => rfl) (fun _ => rfl) (fun _ _ => rfl) (fun _ _ => rfl) (fun _ _ => rfl) : RewriteStep _ (AlterableConfig33.first 0) (AlterableConfig33.first 1) _ _)
    |>.andThen (.field (get := fun (t : AlterableConfig33) => t.Value) (set := fun (t : AlterableConfig33) x => { t with Value := x }) .string (fun _ => rfl) (fun _ => rfl) (fun _ _ => rfl) (fun _ _ => rfl) (fun _ _ => rfl) : RewriteStep _ (AlterableConfig33.first 1) (AlterableConfig33.first 2) _ _)).whole {} rfl (fun _ => rfl) (fun _ h => ⟨h.1, h.2⟩)

theorem AlterConfigsResource33.rewrites (version : Int16) : Rewrites (AlterConfigsResource33.decode version {}) (AlterConfigsResource33.wire version) (AlterConfigsResource33.Fits version) :=
  ((.field (get := fun (t : AlterConfigsResource33) => t.ResourceType) (set := fun (t : AlterConfigsResource33) x => { t with ResourceType := x }) .int8 (fun _ => rfl) (fun _ => rfl) (fun _ _ => rfl) (fun _ _ => rfl) (fun _ _ => rfl) : RewriteStep _ (AlterConfigsResource33.first 0) (AlterConfigsResource33.first 1) _ _)
    |>.andThen (.field (get := fun (t : AlterConfigsResource33) => t.ResourceName) (set := fun (t : AlterConfigsResource33) x => { t with ResourceName := x }) .string (fun _ => rfl) (fun _ => rfl) (fun _ _ => rfl) (fun _ _ => rfl) (fun _ _ => rfl) : RewriteStep _ (AlterConfigsResource33.first 1) (AlterConfigsResource33.first 2) _ _)
    |>.andThen (.structs (get := fun (t : AlterConfigsResource33) => t.Configs) (set := fun (t : AlterConfigsResource33) x => { t with Configs := x }) (AlterableConfig33.rewrites version) (fun _ => rfl) (fun _ => rfl) (fun _ => rfl) (fun _ _ => rfl) (fun _ _ => rfl) (fun _ _ => rfl) : RewriteStep _ (AlterConfigsResource33.first 2) (AlterConfigsResource33.first 3) _ _)).whole {} rfl (fun _ => rfl) (fun _ h => ⟨h.1.2, h.2⟩)

theorem AlterConfigsRequest.rewrites (version : Int16) : Rewrites (AlterConfigsRequest.decode version {}) (AlterConfigsRequest.wire version) (AlterConfigsRequest.Fits version) :=
  ((.structs (get := fun (t : AlterConfigsRequest) => t.Resources) (set := fun (t : AlterConfigsRequest) x => { t with Resources := x }) (AlterConfigsResource33.rewrites version) (fun _ => rfl) (fun _ => rfl) (fun _ => rfl) (fun _ _ => rfl) (fun _ _ => rfl) (fun _ _ => rfl) : RewriteStep _ (AlterConfigsRequest.first 0) (AlterConfigsRequest.first 1) _ _)
    |>.andThen (.field (get := fun (t : AlterConfigsRequest) => t.ValidateOnly) (set := fun (t : AlterConfigsRequest) x => { t with ValidateOnly := x }) .bool (fun _ => rfl) (fun _ => rfl) (fun _ _ => rfl) (fun _ _ => rfl) (fun _ _ => rfl) : RewriteStep _ (AlterConfigsRequest.first 1) (AlterConfigsRequest.first 2) _ _)).whole {} rfl (fun _ => rfl) (fun _ h => ⟨h.1⟩)

theorem AlterConfigsResourceResponse33.rewrites (version : Int16) : Rewrites (AlterConfigsResourceResponse33.decode version {}) (AlterConfigsResourceResponse33.wire version) (AlterConfigsResourceResponse33.Fits version) :=
  ((.field (get := fun (t : AlterConfigsResourceResponse33) => t.ErrorCode) (set := fun (t : AlterConfigsResourceResponse33) x => { t with ErrorCode := x }) .int16 (fun _ => rfl) (fun _ => rfl) (fun _ _ => rfl) (fun _ _ => rfl) (fun _ _ => rfl) : RewriteStep _ (AlterConfigsResourceResponse33.first 0) (AlterConfigsResourceResponse33.first 1) _ _)
    |>.andThen (.field (get := fun (t : AlterConfigsResourceResponse33) => t.ErrorMessage) (set := fun (t : AlterConfigsResourceResponse33) x => { t with ErrorMessage := x }) .string (fun _ => rfl) (fun _ => rfl) (fun _ _ => rfl) (fun _ _ => rfl) (fun _ _ => rfl) : RewriteStep _ (AlterConfigsResourceResponse33.first 1) (AlterConfigsResourceResponse33.first 2) _ _)
    |>.andThen (.field (get := fun (t : AlterConfigsResourceResponse33) => t.ResourceType) (set := fun (t : AlterConfigsResourceResponse33) x => { t with ResourceType := x }) .int8 (fun _ => rfl) (fun _ => rfl) (fun _ _ => rfl) (fun _ _ => rfl) (fun _ _ => rfl) : RewriteStep _ (AlterConfigsResourceResponse33.first 2) (AlterConfigsResourceResponse33.first 3) _ _)
    |>.andThen (.field (get := fun (t : AlterConfigsResourceResponse33) => t.ResourceName) (set := fun (t : AlterConfigsResourceResponse33) x => { t with ResourceName := x }) .string (fun _ => rfl) (fun _ => rfl) (fun _ _ => rfl) (fun _ _ => rfl) (fun _ _ => rfl) : RewriteStep _ (AlterConfigsResourceResponse33.first 3) (AlterConfigsResourceResponse33.first 4) _ _)).whole {} rfl (fun _ => rfl) (fun _ h => ⟨h.1.1.2, h.2⟩)

theorem AlterConfigsResponse.rewrites (version : Int16) : Rewrites (AlterConfigsResponse.decode version {}) (AlterConfigsResponse.wire version) (AlterConfigsResponse.Fits version) :=
  ((.field (get := fun (t : AlterConfigsResponse) => t.ThrottleTimeMs) (set := fun (t : AlterConfigsResponse) x => { t with ThrottleTimeMs := x }) .int32 (fun _ => rfl) (fun _ => rfl) (fun _ _ => rfl) (fun _ _ => rfl) (fun _ _ => rfl) : RewriteStep _ (AlterConfigsResponse.first 0) (AlterConfigsResponse.first 1) _ _)
    |>.andThen (.structs (get := fun (t : AlterConfigsResponse) => t.Responses) (set := fun (t : AlterConfigsResponse) x => { t with Responses := x }) (AlterConfigsResourceResponse33.rewrites version) (fun _ => rfl) (fun _ => rfl) (fun _ => rfl) (fun _ _ => rfl) (fun _ _ => rfl) (fun _ _ => rfl) : RewriteStep _ (AlterConfigsResponse.first 1) (AlterConfigsResponse.first 2) _ _)).whole {} rfl (fun _ => rfl) (fun _ h => ⟨h.2⟩)

theorem rewritesAlterConfigs : ∀ p ∈ typesAlterConfigs, ∀ v, Rewrites (p.1.decode v p.1.zero) (p.2.wire v) (p.2.Fits v) := by
  unfold typesAlterConfigs
  simp only [List.forall_mem_cons]
  exact ⟨AlterConfigsRequest.rewrites, AlterConfigsResource33.rewrites, AlterableConfig33.rewrites, AlterConfigsResponse.rewrites, AlterConfigsResourceResponse33.rewrites, fun _ h => absurd h (by simp)⟩

end Kafka.Msg
