import Verif.Message.Rewrites
import Verif.Gen.Kept.Heartbeat
import Verif.Gen.All
/-!
Generated by tools/gen_messages.py: encoding Heartbeat messages that were decoded.
-/
namespace Kafka.Msg

theorem HeartbeatRequest.rewrites (version : Int16) : Rewrites (HeartbeatRequest.decode version {}) (HeartbeatRequest.wire version) (HeartbeatRequest.Fits version) :=
  ((.field (get := fun (t : HeartbeatRequest) => t.GroupId) (set := fun (t : HeartbeatRequest) x => { t with GroupId := x }) .string (fun _ => rfl) (fun _ => rfl) (fun _ _ => rfl) (fun _ _ => rfl) (fun _ _ => rfl) : RewriteStep _ (HeartbeatRequest.first 0) (HeartbeatRequest.first 1) _ _)
    |>.andThen (.field (get := fun (t : HeartbeatRequest) => t.GenerationId) (set := fun (t : HeartbeatRequest) x => { t with GenerationId := x }) .int32 (fun _ => rfl) (fun _ => rfl) (fun _ _ => rfl) (fun _ _ => rfl) (fun _ _ => rfl) : RewriteStep _ (HeartbeatRequest.first 1) (HeartbeatRequest.first 2) _ _)
    |>.andThen (.field (get := fun (t : HeartbeatRequest) => t.MemberId) (set := fun (t : HeartbeatRequest) x => { t with MemberId := x }) .string (fun _ => rfl) (fun _ => rfl) (fun _ _ => rfl) (fun _ _ => rfl) (fun _ _ => rfl) : RewriteStep _ (HeartbeatRequest.first 2) (HeartbeatRequest.first 3) _ _)
    |>.andThen (.onlyIf (g := version ≥ 3) (.field (get := fun (t : HeartbeatRequest) => t.GroupInstanceId) (set := fun (t : HeartbeatRequest) x => { t with GroupInstanceId := x }) .string (fun _ => rfl) (fun _ => rfl) (fun _ _ => rfl) (fun _ _ => rfl) (fun _ _ => rfl)) (fun _ => rfl) : RewriteStep _ (HeartbeatRequest.first 3) (HeartbeatRequest.first 4) _ _)).whole {} rfl (fun _ => rfl) (fun _ h => ⟨h.1.1.1, h.1.2, h.2⟩)

theorem HeartbeatResponse.rewrites (version : Int16) : Rewrites (HeartbeatResponse.decode version {}) (HeartbeatResponse.wire version) (HeartbeatResponse.Fits version) :=
  ((.onlyIf (g := version ≥ 1) (.field (get := fun (t : HeartbeatResponse) => t.ThrottleTimeMs) (set := fun (t : HeartbeatResponse) x => { t with ThrottleTimeMs := x }) .int32 (fun _ => rfl) (fun _ => rfl) (fun _ _ => rfl) (fun _ _ => rfl) (fun _ _ => rfl)) (fun _ => rfl) : RewriteStep _ (HeartbeatResponse.first 0) (HeartbeatResponse.first 1) _ _)
    |>.andThen (.field (get := fun (t : HeartbeatResponse) => t.ErrorCode) (set := fun (t : HeartbeatResponse) x => { t with ErrorCode := x }) .int16 (fun _ => rfl) (fun _ => rfl) (fun _ _ => rfl) (fun _ _ => rfl) (fun _ _ => rfl) : RewriteStep _ (HeartbeatResponse.first 1) (HeartbeatResponse.first 2) _ _)).whole {} rfl (fun _ => rfl) (fun _ _ => trivial)

theorem rewritesHeartbeat : ∀ p ∈ typesHeartbeat, ∀ v, Rewrites (p.1.decode v p.1.zero) (p.2.wire v) (p.2.Fits v) := by
  unfold typesHeartbeat
  simp only [List.forall_mem_cons]
  exact ⟨HeartbeatRequest.rewrites, HeartbeatResponse.rewrites, fun _ h => absurd h (by simp)⟩

end Kafka.Msg
