import Verif.Message.Rewrites
import Verif.Gen.Kept.DeleteTopics
import Verif.Gen.All
/-!
Generated by tools/gen_messages.py: encoding DeleteTopics messages that were decoded.
-/
namespace Kafka.Msg

theorem DeleteTopicsRequest.rewrites (version : Int16) : Rewrites (DeleteTopicsRequest.decode version {}) (DeleteTopicsRequest.wire version) (DeleteTopicsRequest.Fits version) :=
  ((.field (get := fun (t : DeleteTopicsRequest) => t.TopicNames) (set := fun (t : DeleteTopicsRequest) x => { t with TopicNames := x }) .stringArray (fun _ => rfl) (fun _ => rfl) (fun _ _ => rfl) (fun _ _ => rfl) (fun _ _ => rfl) : RewriteStep _ (DeleteTopicsRequest.first 0) (DeleteTopicsRequest.first 1) _ _)
    |>.andThen (.field (get := fun (t : DeleteTopicsRequest) => t.TimeoutMs) (set := fun (t : DeleteTopicsRequest) x => { t with TimeoutMs := x }) .int32 (fun _ => rfl) (fun _ => rfl) (fun _ _ => rfl) (fun _ _ => rfl) (fun _ _ => rfl) : RewriteStep _ (DeleteTopicsRequest.first 1) (DeleteTopicsRequest.first 2) _ _)).whole {} rfl (fun _ => rfl) (fun _ h => ⟨h.1⟩)

theorem DeletableTopicResult20.rewrites (version : Int16) : Rewrites (DeletableTopicResult20.decode version {}) (DeletableTopicResult20.wire version) (DeletableTopicResult20.Fits version) :=
  ((.field (get := fun (t : DeletableTopicResult20) => t.Name) (set := fun (t : DeletableTopicResult20) x => { t with Name := x }) .string (fun _ => rfl) (fun _ => rfl) (fun _ _ => rfl) (fun _ _ => rfl) (fun _ _ => rfl) : RewriteStep _ (DeletableTopicResult20.first 0) (DeletableTopicResult20.first 1) _ _)
    |>.andThen (.field (get := fun (t : DeletableTopicResult20) => t.ErrorCode) (set := fun (t : DeletableTopicResult20) x => { t with ErrorCode := x }) .int16 (fun _ => rfl) (fun _ => rfl) (fun _ _ => rfl) (fun _ _ => rfl) (fun _ _ => rfl) : RewriteStep _ (DeletableTopicResult20.first 1) (DeletableTopicResult20.first 2) _ _)).whole {} rfl (fun _ => rfl) (fun _ h => ⟨h.1⟩)

theorem DeleteTopicsResponse.rewrites (version : Int16) : Rewrites (DeleteTopicsResponse.decode version {}) (DeleteTopicsResponse.wire version) (DeleteTopicsResponse.Fits version) :=
  ((.onlyIf (g := version ≥ 1) (.field (get := fun (t : DeleteTopicsResponse) => t.ThrottleTimeMs) (set := fun (t : DeleteTopicsResponse) x => { t with ThrottleTimeMs := x }) .int32 (fun _ => rfl) (fun _ => rfl) (fun _ _ => rfl) (fun _ _ => rfl) (fun _ _ => rfl)) (fun _ => rfl) : RewriteStep _ (DeleteTopicsResponse.first 0) (DeleteTopicsResponse.first 1) _ _)
    |>.andThen (.structs (get := fun (t : DeleteTopicsResponse) => t.Responses) (set := fun (t : DeleteTopicsResponse) x => { t with Responses := x }) (DeletableTopicResult20.rewrites version) (fun _ => rfl) (fun _ => rfl) (fun _ => rfl) (fun _ _ => rfl) (fun _ _ => rfl) (fun _ _ => rfl) : RewriteStep _ (DeleteTopicsResponse.first 1) (DeleteTopicsResponse.first 2) _ _)).whole {} rfl (fun _ => rfl) (fun _ h => ⟨h.2⟩)

theorem rewritesDeleteTopics : ∀ p ∈ typesDeleteTopics, ∀ v, Rewrites (p.1.decode v p.1.zero) (p.2.wire v) (p.2.Fits v) := by
  unfold typesDeleteTopics
  simp only [List.forall_mem_cons]
  exact ⟨DeleteTopicsRequest.rewrites, DeleteTopicsResponse.rewrites, DeletableTopicResult20.rewrites, fun _ h => absurd h (by simp)⟩

end Kafka.Msg
