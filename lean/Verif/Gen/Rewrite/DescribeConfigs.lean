import Verif.Message.Rewrites
import Verif.Gen.Kept.DescribeConfigs
import Verif.Gen.All
/-!
Generated by tools/gen_messages.py: encoding DescribeConfigs messages that were decoded.
-/
namespace Kafka.Msg

theorem DescribeConfigsResource32.rewrites (version : Int16) : Rewrites (DescribeConfigsResource32.decode version {}) (DescribeConfigsResource32.wire version) (DescribeConfigsResource32.Fits version) :=
  ((.field (get := fun (t : DescribeConfigsResource32) => t.ResourceType) (set := fun (t : DescribeConfigsResource32) x => { t with ResourceType := x }) .int8 (fun _ => rfl) (fun _ => rfl) (fun _ _ => rfl) (fun _ _ => rfl) (fun _ _ => rfl) : RewriteStep _ (DescribeConfigsResource32.first 0) (DescribeConfigsResource32.first 1) _ _)
    |>.andThen (.field (get := fun (t : DescribeConfigsResource32) => t.ResourceName) (set := fun (t : DescribeConfigsResource32) x => { t with ResourceName := x }) .string (fun _ => rfl) (fun _ => rfl) (fun _ _ => rfl) (fun _ _ => rfl) (fun _ _ => rfl) : RewriteStep _ (DescribeConfigsResource32.first 1) (DescribeConfigsResource32.first 2) _ _)
    |>.andThen (.field (get := fun (t : DescribeConfigsResource32) => t.ConfigurationKeys) (set := fun (t : DescribeConfigsResource32) x => { t with ConfigurationKeys := x }) .stringArray (fun _ => rfl) (fun _ => rfl) (fun _ _ => rfl) (fun _ _ => rfl) (fun _ _ => rfl) : RewriteStep _ (DescribeConfigsResource32.first 2) (DescribeConfigsResource32.first 3) _ _)).whole {} rfl (fun _ => rfl) (fun _ h => ⟨h.1.2, h.2⟩)

theorem DescribeConfigsRequest.rewrites (version : Int16) : Rewrites (DescribeConfigsRequest.decode version {}) (DescribeConfigsRequest.wire version) (DescribeConfigsRequest.Fits version) :=
  ((.structs (get := fun (t : DescribeConfigsRequest) => t.Resources) (set := fun (t : DescribeConfigsRequest) x => { t with Resources := x }) (DescribeConfigsResource32.rewrites version) (fun _ => rfl) (fun _ => rfl) (fun _ => rfl) (fun _ _ => rfl) (fun _ _ => rfl) (fun _ _ => rfl) : RewriteStep _ (DescribeConfigsRequest.first 0) (DescribeConfigsRequest.first 1) _ _)
    |>.andThen (.onlyIf (g := version ≥ 1) (.field (get := fun (t : DescribeConfigsRequest) => t.IncludeSynoyms) (set := fun (t : DescribeConfigsRequest) x => { t with IncludeSynoyms := x }) .bool (fun _ => rfl) (fun _ => rfl) (fun _ _ => rfl) (fun _ _ => rfl) (fun _ _ => rfl)) (fun _ => rfl) : RewriteStep _ (DescribeConfigsRequest.first 1) (DescribeConfigsRequest.first 2) _ _)).whole {} rfl (fun _ => rfl) (fun _ h => ⟨h.1⟩)

theorem DescribeConfigsSynonym32.rewrites (version : Int16) : Rewrites (DescribeConfigsSynonym32.decode version {}) (DescribeConfigsSynonym32.wire version) (DescribeConfigsSynonym32.Fits version) :=
  ((.onlyIf (g := version ≥ 1) (.field (get := fun (t : DescribeConfigsSynonym32) => t.Name) (set := fun (t : DescribeConfigsSynonym32) x => { t with Name := x }) .string (fun _ => rfl) (fun _ => rfl) (fun _ _ => rfl) (fun _ _ => rfl) (fun _ _ => rfl)) (fun _ => rfl) : RewriteStep _ (DescribeConfigsSynonym32.first 0) (DescribeConfigsSynonym32.first 1) _ _)
    |>.andThen (.onlyIf (g := version ≥ 1) (.field (get := fun (t : DescribeConfigsSynonym32) => t.Value) (set := fun (t : DescribeConfigsSynonym32) x => { t with Value := x }) .string (fun _ => rfl) (fun _ => rfl) (fun _ _ => rfl) (fun _ _ => rfl) (fun _ _ => rfl)) (fun _ => rfl) : RewriteStep _ (DescribeConfigsSynonym32.first 1) (DescribeConfigsSynonym32.first 2) _ _)
    |>.andThen (.onlyIf (g := version ≥ 1) (.field (get := fun (t : DescribeConfigsSynonym32) => t.Source) (set := fun (t : DescribeConfigsSynonym32) x => { t with Source := x }) .int8 (fun _ => rfl) (fun _ => rfl) (fun _ _ => rfl) (fun _ _ => rfl) (fun _ _ => rfl)) (fun _ => rfl) : RewriteStep _ (DescribeConfigsSynonym32.first 2) (DescribeConfigsSynonym32.first 3) _ _)).whole {} rfl (fun _ => rfl) (fun _ h => ⟨h.1.1, h.1.2⟩)

theorem DescribeConfigsResourceResult32.rewrites (version : Int16) : Rewrites (DescribeConfigsResourceResult32.decode version {}) (DescribeConfigsResourceResult32.wire version) (DescribeConfigsResourceResult32.Fits version) :=
  ((.field (get := fun (t : DescribeConfigsResourceResult32) => t.Name) (set := fun (t : DescribeConfigsResourceResult32) x => { t with Name := x }) .string (fun _ => rfl) (fun _ => rfl) (fun _ _ => rfl) (fun _ _ => rfl) (fun _ _ => rfl) : RewriteStep _ (DescribeConfigsResourceResult32.first 0) (DescribeConfigsResourceResult32.first 1) _ _)
    |>.andThen (.field (get := fun (t : DescribeConfigsResourceResult32) => t.Value) (set := fun (t : DescribeConfigsResourceResult32) x => { t with Value := x }) .string (fun _ => rfl) (fun _ => rfl) (fun _ _ => rfl) (fun _ _ => rfl) (fun _ _ => rfl) : RewriteStep _ (DescribeConfigsResourceResult32.first 1) (DescribeConfigsResourceResult32.first 2) _ _)
    |>.andThen (.field (get := fun (t : DescribeConfigsResourceResult32) => t.ReadOnly) (set := fun (t : DescribeConfigsResourceResult32) x => { t with ReadOnly := x }) .bool (fun _ => rfl) (fun _ => rfl) (fun _ _ => rfl) (fun _ _ => rfl) (fun _ _ => rfl) : RewriteStep _ (DescribeConfigsResourceResult32.first 2) (DescribeConfigsResourceResult32.first 3) _ _)
    |>.andThen (.onlyIf (g := version ≥ 0 ∧ version ≤ 0) (.field (get := fun (t : DescribeConfigsResourceResult32) => t.IsDefault) (set := fun (t : DescribeConfigsResourceResult32) x => { t with IsDefault := x }) .bool (fun _ => rfl) (fun _ => rfl) (fun _ _ => rfl) (fun _ _ => rfl) (fun _ _ => rfl)) (fun _ => rfl) : RewriteStep _ (DescribeConfigsResourceResult32.first 3) (DescribeConfigsResourceResult32.first 4) _ _)
    |>.andThen (.onlyIf (g := version ≥ 1) (.field (get := fun (t : DescribeConfigsResourceResult32) => t.ConfigSource) (set := fun (t : DescribeConfigsResourceResult32) x => { t with ConfigSource := x }) .int8 (fun _ => rfl) (fun _ => rfl) (fun _ _ => rfl) (fun _ _ => rfl) (fun _ _ => rfl)) (fun _ => rfl) : RewriteStep _ (DescribeConfigsResourceResult32.first 4) (DescribeConfigsResourceResult32.first 5) _ _)
    |>.andThen (.field (get := fun (t : DescribeConfigsResourceResult32) => t.IsSensitive) (set := fun (t : DescribeConfigsResourceResult32) x => { t with IsSensitive := x }) .bool (fun _ => rfl) (fun _ => rfl) (fun _ _ => rfl) (fun _ _ => rfl) (fun _ _ => rfl) : RewriteStep _ (DescribeConfigsResourceResult32.first 5) (DescribeConfigsResourceResult32.first 6) _ _)
    |>.andThen (.onlyIf (g := version ≥ 1) (.structs (get := fun (t : DescribeConfigsResourceResult32) => t.Synonyms) (set := fun (t : DescribeConfigsResourceResult32) x => { t with Synonyms := x }) (DescribeConfigsSynonym32.rewrites version) (fun _ => rfl) (fun _ => rfl) (fun _ => rfl) (fun _ _ => rfl) (fun _ _ => rfl) (fun _ _ => rfl)) (fun _ => rfl) : RewriteStep _ (DescribeConfigsResourceResult32.first 6) (DescribeConfigsResourceResult32.first 7) _ _)).whole {} rfl (fun _ => rfl) (fun _ h => ⟨h.1.1.1.1.1.1, h.1.1.1.1.1.2, h.2⟩)

theorem DescribeConfigsResult32.rewrites (version : Int16) : Rewrites (DescribeConfigsResult32.decode version {}) (DescribeConfigsResult32.wire version) (DescribeConfigsResult32.Fits version) :=
  ((.field (get := fun (t : DescribeConfigsResult32) => t.ErrorCode) (set := fun (t : DescribeConfigsResult32) x => { t with ErrorCode := x }) .int16 (fun _ => rfl) (fun _ => rfl) (fun _ _ => rfl) (fun _ _ => rfl) (fun _ _ => rfl) : RewriteStep _ (DescribeConfigsResult32.first 0) (DescribeConfigsResult32.first 1) _ _)
    |>.andThen (.field (get := fun (t : DescribeConfigsResult32) => t.ErrorMessage) (set := fun (t : DescribeConfigsResult32) x => { t with ErrorMessage := x }) .string (fun _ => rfl) (fun _ => rfl) (fun _ _ => rfl) (fun _ _ => rfl) (fun _ _ => rfl) : RewriteStep _ (DescribeConfigsResult32.first 1) (DescribeConfigsResult32.first 2) _ _)
    |>.andThen (.field (get := fun (t : DescribeConfigsResult32) => t.ResourceType) (set := fun (t : DescribeConfigsResult32) x => { t with ResourceType := x }) .int8 (fun _ => rfl) (fun _ => rfl) (fun _ _ => rfl) (fun _ _ => rfl) (fun _ _ => rfl) : RewriteStep _ (DescribeConfigsResult32.first 2) (DescribeConfigsResult32.first 3) _ _)
    |>.andThen (.field (get := fun (t : DescribeConfigsResult32) => t.ResourceName) (set := fun (t : DescribeConfigsResult32) x => { t with ResourceName := x }) .string (fun _ => rfl) (fun _ => rfl) (fun _ _ => rfl) (fun _ _ => rfl) (fun _ _ => rfl) : RewriteStep _ (DescribeConfigsResult32.first 3) (DescribeConfigsResult32.first 4) _ _)
    |>.andThen (.structs (get := fun (t : DescribeConfigsResult32) => t.Configs) (set := fun (t : DescribeConfigsResult32) x => { t with Configs := x }) (DescribeConfigsResourceResult32.rewrites version) (fun _ => rfl) (fun _ => rfl) (fun _ => rfl) (fun _ _ => rfl) (fun _ _ => rfl) (fun _ _ => rfl) : RewriteStep _ (DescribeConfigsResult32.first 4) (DescribeConfigsResult32.first 5) _ _)).whole {} rfl (fun _ => rfl) (fun _ h => ⟨h.1.1.1.2, h.1.2, h.2⟩)

theorem DescribeConfigsResponse.rewrites (version : Int16) : Rewrites (DescribeConfigsResponse.decode version {}) (DescribeConfigsResponse.wire version) (DescribeConfigsResponse.Fits version) :=
  ((.field (get := fun (t : DescribeConfigsResponse) => t.ThrottleTimeMs) (set := fun (t : DescribeConfigsResponse) x => { t with ThrottleTimeMs := x }) .int32 (fun _ => rfl) (fun _ => rfl) (fun _ _ => rfl) (fun _ _ => rfl) (fun _ _ => rfl) : RewriteStep _ (DescribeConfigsResponse.first 0) (DescribeConfigsResponse.first 1) _ _)
    |>.andThen (.structs (get := fun (t : DescribeConfigsResponse) => t.Results) (set := fun (t : DescribeConfigsResponse) x => { t with Results := x }) (DescribeConfigsResult32.rewrites version) (fun _ => rfl) (fun _ => rfl) (fun _ => rfl) (fun _ _ => rfl) (fun _ _ => rfl) (fun _ _ => rfl) : RewriteStep _ (DescribeConfigsResponse.first 1) (DescribeConfigsResponse.first 2) _ _)).whole {} rfl (fun _ => rfl) (fun _ h => ⟨h.2⟩)

theorem rewritesDescribeConfigs : ∀ p ∈ typesDescribeConfigs, ∀ v, Rewrites (p.1.decode v p.1.zero) (p.2.wire v) (p.2.Fits v) := by
  unfold typesDescribeConfigs
  simp only [List.forall_mem_cons]
  exact ⟨DescribeConfigsRequest.rewrites, DescribeConfigsResource32.rewrites, DescribeConfigsResponse.rewrites, DescribeConfigsResult32.rewrites, DescribeConfigsResourceResult32.rewrites, DescribeConfigsSynonym32.rewrites, fun _ h => absurd h (by simp)⟩

end Kafka.Msg
