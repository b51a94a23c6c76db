import Verif.Message.Rewrites
import Verif.Gen.Kept.JoinGroup
import Verif.Gen.All
/-!
Generated by tools/gen_messages.py: encoding JoinGroup messages that were decoded.
-/
namespace Kafka.Msg

theorem JoinGroupRequestProtocol11.rewrites (version : Int16) : Rewrites (JoinGroupRequestProtocol11.decode version {}) (JoinGroupRequestProtocol11.wire version) (JoinGroupRequestProtocol11.Fits version) :=
  ((.field (get := fun (t : JoinGroupRequestProtocol11) => t.Name) (set := fun (t : JoinGroupRequestProtocol11) x => { t with Name := x }) .string (fun _ => rfl) (fun _ => rfl) (fun _ _ => rfl) (fun _ _ => rfl) (fun _ _ => rfl) : RewriteStep _ (JoinGroupRequestProtocol11.first 0) (JoinGroupRequestProtocol11.first 1) _ _)
    |>.andThen (.field (get := fun (t : JoinGroupRequestProtocol11) => t.Metadata) (set := fun (t : JoinGroupRequestProtocol11) x => { t with Metadata := x }) .bytes (fun _ => rfl) (fun _ => rfl) (fun _ _ => rfl) (fun _ _ => rfl) (fun _ _ => rfl) : RewriteStep _ (JoinGroupRequestProtocol11.first 1) (JoinGroupRequestProtocol11.first 2) _ _)).whole {} rfl (fun _ => rfl) (fun _ h => ⟨h.1, h.2⟩)

theorem JoinGroupRequest.rewrites (version : Int16) : Rewrites (JoinGroupRequest.decode version {}) (JoinGroupRequest.wire version) (JoinGroupRequest.Fits version) :=
  ((.field (get := fun (t : JoinGroupRequest) => t.GroupId) (set := fun (t : JoinGroupRequest) x => { t with GroupId := x }) .string (fun _ => rfl) (fun _ => rfl) (fun _ _ => rfl) (fun _ _ => rfl) (fun _ _ => rfl) : RewriteStep _ (JoinGroupRequest.first 0) (JoinGroupRequest.first 1) _ _)
    |>.andThen (.field (get := fun (t : JoinGroupRequest) => t.SessionTimeoutMs) (set := fun (t : JoinGroupRequest) x => { t with SessionTimeoutMs := x }) .int32 (fun _ => rfl) (fun _ => rfl) (fun _ _ => rfl) (fun _ _ => rfl) (fun _ _ => rfl) : RewriteStep _ (JoinGroupRequest.first 1) (JoinGroupRequest.first 2) _ _)
    |>.andThen (.onlyIf (g := version ≥ 1) (.field (get := fun (t : JoinGroupRequest) => t.RebalanceTimeoutMs) (set := fun (t : JoinGroupRequest) x => { t with RebalanceTimeoutMs := x }) .int32 (fun _ => rfl) (fun _ => rfl) (fun _ _ => rfl) (fun _ _ => rfl) (fun _ _ => rfl)) (fun _ => rfl) : RewriteStep _ (JoinGroupRequest.first 2) (JoinGroupRequest.first 3) _ _)
    |>.andThen (.field (get := fun (t : JoinGroupRequest) => t.MemberId) (set := fun (t : JoinGroupRequest) x => { t with MemberId := x }) .string (fun _ => rfl) (fun _ => rfl) (fun _ _ => rfl) (fun _ _ => rfl) (fun _ _ => rfl) : RewriteStep _ (JoinGroupRequest.first 3) (JoinGroupRequest.first 4) _ _)
    |>.andThen (.onlyIf (g := version ≥ 5) (.field (get := fun (t : JoinGroupRequest) => t.GroupInstanceId) (set := fun (t : JoinGroupRequest) x => { t with GroupInstanceId := x }) .string (fun _ => rfl) (fun _ => rfl) (fun _ _ => rfl) (fun _ _ => rfl) (fun _ _ => rfl)) (fun _ => rfl) : RewriteStep _ (JoinGroupRequest.first 4) (JoinGroupRequest.first 5) _ _)
    |>.andThen (.field (get := fun (t : JoinGroupRequest) => t.ProtocolType) (set := fun (t : JoinGroupRequest) x => { t with ProtocolType := x }) .string (fun _ => rfl) (fun _ => rfl) (fun _ _ => rfl) (fun _ _ => rfl) (fun _ _ => rfl) : RewriteStep _ (JoinGroupRequest.first 5) (JoinGroupRequest.first 6) _ _)
    |>.andThen (.structs (get := fun (t : JoinGroupRequest) => t.Protocols) (set := fun (t : JoinGroupRequest) x => { t with Protocols := x }) (JoinGroupRequestProtocol11.rewrites version) (fun _ => rfl) (fun _ => rfl) (fun _ => rfl) (fun _ _ => rfl) (fun _ _ => rfl) (fun _ _ => rfl) : RewriteStep _ (JoinGroupRequest.first 6) (JoinGroupRequest.first 7) _ _)).whole {} rfl (fun _ => rfl) (fun _ h => ⟨h.1.1.1.1.1.1, h.1.1.1.2, h.1.1.2, h.1.2, h.2⟩)

theorem JoinGroupResponseMember11.rewrites (version : Int16) : Rewrites (JoinGroupResponseMember11.decode version {}) (JoinGroupResponseMember11.wire version) (JoinGroupResponseMember11.Fits version) :=
  ((.field (get := fun (t : JoinGroupResponseMember11) => t.MemberId) (set := fun (t : JoinGroupResponseMember11) x => { t with MemberId := x }) .string (fun _ => rfl) (fun _ => rfl) (fun _ _ => rfl) (fun _ _ => rfl) (fun _ _ => rfl) : RewriteStep _ (JoinGroupResponseMember11.first 0) (JoinGroupResponseMember11.first 1) _ _)
    |>.andThen (.onlyIf (g := version ≥ 5) (.field (get := fun (t : JoinGroupResponseMember11) => t.GroupInstanceId) (set := fun (t : JoinGroupResponseMember11) x => { t with GroupInstanceId := x }) .string (fun _ => rfl) (fun _ => rfl) (fun _ _ => rfl) (fun _ _ => rfl) (fun _ _ => rfl)) (fun _ => rfl) : RewriteStep _ (JoinGroupResponseMember11.first 1) (JoinGroupResponseMember11.first 2) _ _)
    |>.andThen (.field (get := fun (t : JoinGroupResponseMember11) => t.Metadata) (set := fun (t : JoinGroupResponseMember11) x => { t with Metadata := x }) .bytes (fun _ => rfl) (fun _ => rfl) (fun _ _ => rfl) (fun _ _ => rfl) (fun _ _ => rfl) : RewriteStep _ (JoinGroupResponseMember11.first 2) (JoinGroupResponseMember11.first 3) _ _)).whole {} rfl (fun _ => rfl) (fun _ h => ⟨h.1.1, h.1.2, h.2⟩)

theorem JoinGroupResponse.rewrites (version : Int16) : Rewrites (JoinGroupResponse.decode version {}) (JoinGroupResponse.wire version) (JoinGroupResponse.Fits version) :=
  ((.onlyIf (g := version ≥ 2) (.field (get := fun (t : JoinGroupResponse) => t.ThrottleTimeMs) (set := fun (t : JoinGroupResponse) x => { t with ThrottleTimeMs := x }) .int32 (fun _ => rfl) (fun _ => rfl) (fun _ _ => rfl) (fun _ _ => rfl) (fun _ _ => rfl)) (fun _ => rfl) : RewriteStep _ (JoinGroupResponse.first 0) (JoinGroupResponse.first 1) _ _)
    |>.andThen (.field (get := fun (t : JoinGroupResponse) => t.ErrorCode) (set := fun (t : JoinGroupResponse) x => { t with ErrorCode := x }) .int16 (fun _ => rfl) (fun _ => rfl) (fun _ _ => rfl) (fun _ _ => rfl) (fun _ _ => rfl) : RewriteStep _ (JoinGroupResponse.first 1) (JoinGroupResponse.first 2) _ _)
    |>.andThen (.field (get := fun (t : JoinGroupResponse) => t.GenerationId) (set := fun (t : JoinGroupResponse) x => { t with GenerationId := x }) .int32 (fun _ => rfl) (fun _ => rfl) (fun _ _ => rfl) (fun _ _ => rfl) (fun _ _ => rfl) : RewriteStep _ (JoinGroupResponse.first 2) (JoinGroupResponse.first 3) _ _)
    |>.andThen (.field (get := fun (t : JoinGroupResponse) => t.ProtocolName) (set := fun (t : JoinGroupResponse) x => { t with ProtocolName := x }) .string (fun _ => rfl) (fun _ => rfl) (fun _ _ => rfl) (fun _ _ => rfl) (fun _ _ => rfl) : RewriteStep _ (JoinGroupResponse.first 3) (JoinGroupResponse.first 4) _ _)
    |>.andThen (.field (get := fun (t : JoinGroupResponse) => t.Leader) (set := fun (t : JoinGroupResponse) x => { t with Leader := x }) .string (fun _ => rfl) (fun _ => rfl) (fun _ _ => rfl) (fun _ _ => rfl) (fun _ _ => rfl) : RewriteStep _ (JoinGroupResponse.first 4) (JoinGroupResponse.first 5) _ _)
    |>.andThen (.field (get := fun (t : JoinGroupResponse) => t.MemberId) (set := fun (t : JoinGroupResponse) x => { t with MemberId := x }) .string (fun _ => rfl) (fun _ => rfl) (fun _ _ => rfl) (fun _ _ => rfl) (fun _ _ => rfl) : RewriteStep _ (JoinGroupResponse.first 5) (JoinGroupResponse.first 6) _ _)
    |>.andThen (.structs (get := fun (t : JoinGroupResponse) => t.Members) (set := fun (t : JoinGroupResponse) x => { t with Members := x }) (JoinGroupResponseMember11.rewrites version) (fun _ => rfl) (fun _ => rfl) (fun _ => rfl) (fun _ _ => rfl) (fun _ _ => rfl) (fun _ _ => rfl) : RewriteStep _ (JoinGroupResponse.first 6) (JoinGroupResponse.first 7) _ _)).whole {} rfl (fun _ => rfl) (fun _ h => ⟨h.1.1.1.2, h.1.1.2, h.1.2, h.2⟩)

theorem rewritesJoinGroup : ∀ p ∈ typesJoinGroup, ∀ v, Rewrites (p.1.decode v p.1.zero) (p.2.wire v) (p.2.Fits v) := by
  unfold typesJoinGroup
  simp only [List.forall_mem_cons]
  exact ⟨JoinGroupRequest.rewrites, JoinGroupRequestProtocol11.rewrites, JoinGroupResponse.rewrites, JoinGroupResponseMember11.rewrites, fun _ h => absurd h (by simp)⟩

end Kafka.Msg
