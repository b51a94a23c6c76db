import Verif.Message.Rewrites
import Verif.Gen.Kept.ApiVersions
import Verif.Gen.All
/-!
Generated by tools/gen_messages.py: encoding ApiVersions messages that were decoded.
-/
namespace Kafka.Msg

theorem ApiVersionsRequest.rewrites (version : Int16) : Rewrites (ApiVersionsRequest.decode version {}) (ApiVersionsRequest.wire version) (ApiVersionsRequest.Fits version) :=
  ((.onlyIf (g := version ≥ 3) (.field (get := fun (t : ApiVersionsRequest) => t.ClientSoftwareName) (set := fun (t : ApiVersionsRequest) x => { t with ClientSoftwareName := x }) .string (fun _ => rfl) (fun _ => rfl) (fun _ _ => rfl) (fun _ _ => rfl) (fun _ _ => rfl)) (fun _ => rfl) : RewriteStep _ (ApiVersionsRequest.first 0) (ApiVersionsRequest.first 1) _ _)
    |>.andThen (.onlyIf (g := version ≥ 3) (.field (get := fun (t : ApiVersionsRequest) => t.ClientSoftwareVersion) (set := fun (t : ApiVersionsRequest) x => { t with ClientSoftwareVersion := x }) .string (fun _ => rfl) (fun _ => rfl) (fun _ _ => rfl) (fun _ _ => rfl) (fun _ _ => rfl)) (fun _ => rfl) : RewriteStep _ (ApiVersionsRequest.first 1) (ApiVersionsRequest.first 2) _ _)).whole {} rfl (fun _ => rfl) (fun _ h => ⟨h.1, h.2⟩)

theorem ApiVersionsResponseKey18.rewrites (version : Int16) : Rewrites (ApiVersionsResponseKey18.decode version {}) (ApiVersionsResponseKey18.wire version) (ApiVersionsResponseKey18.Fits version) :=
  ((.field (get := fun (t : ApiVersionsResponseKey18) => t.ApiKey) (set := fun (t : ApiVersionsResponseKey18) x => { t with ApiKey := x }) .int16 (fun _ => rfl) (fun _ => rfl) (fun _ _ => rfl) (fun _ _ => rfl) (fun _ _ => rfl) : RewriteStep _ (ApiVersionsResponseKey18.first 0) (ApiVersionsResponseKey18.first 1) _ _)
    |>.andThen (.field (get := fun (t : ApiVersionsResponseKey18) => t.MinVersion) (set := fun (t : ApiVersionsResponseKey18) x => { t with MinVersion := x }) .int16 (fun _ => rfl) (fun _ => rfl) (fun _ _ => rfl) (fun _ _ => rfl) (fun _ _ => rfl) : RewriteStep _ (ApiVersionsResponseKey18.first 1) (ApiVersionsResponseKey18.first 2) _ _)
    |>.andThen (.field (get := fun (t : ApiVersionsResponseKey18) => t.MaxVersion) (set := fun (t : ApiVersionsResponseKey18) x => { t with MaxVersion := x }) .int16 (fun _ => rfl) (fun _ => rfl) (fun _ _ => rfl) (fun _ _ => rfl) (fun _ _ => rfl) : RewriteStep _ (ApiVersionsResponseKey18.first 2) (ApiVersionsResponseKey18.first 3) _ _)).whole {} rfl (fun _ => rfl) (fun _ _ => trivial)

theorem ApiVersionsResponse.rewrites (version : Int16) : Rewrites (ApiVersionsResponse.decode version {}) (ApiVersionsResponse.wire version) (ApiVersionsResponse.Fits version) :=
  ((.field (get := fun (t : ApiVersionsResponse) => t.ErrorCode) (set := fun (t : ApiVersionsResponse) x => { t with ErrorCode := x }) .int16 (fun _ => rfl) (fun _ => rfl) (fun _ _ => rfl) (fun _ _ => rfl) (fun _ _ => rfl) : RewriteStep _ (ApiVersionsResponse.first 0) (ApiVersionsResponse.first 1) _ _)
    |>.andThen (.structs (get := fun (t : ApiVersionsResponse) => t.ApiKeys) (set := fun (t : ApiVersionsResponse) x => { t with ApiKeys := x }) (ApiVersionsResponseKey18.rewrites version) (fun _ => rfl) (fun _ => rfl) (fun _ => rfl) (fun _ _ => rfl) (fun _ _ => rfl) (fun _ _ => rfl) : RewriteStep _ (ApiVersionsResponse.first 1) (ApiVersionsResponse.first 2) _ _)
    |>.andThen (.onlyIf (g := version ≥ 1) (.field (get := fun (t : ApiVersionsResponse) => t.ThrottleTimeMs) (set := fun (t : ApiVersionsResponse) x => { t with ThrottleTimeMs := x }) .int32 (fun _ => rfl) (fun _ => rfl) (fun _ _ => rfl) (fun _ _ => rfl) (fun _ _ => rfl)) (fun _ => rfl) : RewriteStep _ (ApiVersionsResponse.first 2) (ApiVersionsResponse.first 3) _ _)).whole {} rfl (fun _ => rfl) (fun _ h => ⟨h.1.2⟩)

theorem rewritesApiVersions : ∀ p ∈ typesApiVersions, ∀ v, Rewrites (p.1.decode v p.1.zero) (p.2.wire v) (p.2.Fits v) := by
  unfold typesApiVersions
  simp only [List.forall_mem_cons]
  exact ⟨ApiVersionsRequest.rewrites, ApiVersionsResponse.rewrites, ApiVersionsResponseKey18.rewrites, fun _ h => absurd h (by simp)⟩

end Kafka.Msg
