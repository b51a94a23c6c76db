import Verif.Message.Rewrites
import Verif.Gen.Kept.DescribeGroups
import Verif.Gen.All
/-!
Generated by tools/gen_messages.py: encoding DescribeGroups messages that were decoded.
-/
namespace Kafka.Msg

theorem DescribeGroupsRequest.rewrites (version : Int16) : Rewrites (DescribeGroupsRequest.decode version {}) (DescribeGroupsRequest.wire version) (DescribeGroupsRequest.Fits version) :=
  ((.field (get := fun (t : DescribeGroupsRequest) => t.Groups) (set := fun (t : DescribeGroupsRequest) x => { t with Groups := x }) .stringArray (fun _ => rfl) (fun _ => rfl) (fun _ _ => rfl) (fun _ _ => rfl) (fun _ _ => rfl) : RewriteStep _ (DescribeGroupsRequest.first 0) (DescribeGroupsRequest.first 1) _ _)
    |>.andThen (.onlyIf (g := version ≥ 3) (.field (get := fun (t : DescribeGroupsRequest) => t.IncludeAuthorizedOperations) (set := fun (t : DescribeGroupsRequest) x => { t with IncludeAuthorizedOperations := x }) .bool (fun _ => rfl) (fun _ => rfl) (fun _ _ => rfl) (fun _ _ => rfl) (fun _ _ => rfl)) (fun _ => rfl) : RewriteStep _ (DescribeGroupsRequest.first 1) (DescribeGroupsRequest.first 2) _ _)).whole {} rfl (fun _ => rfl) (fun _ h => ⟨h.1⟩)

theorem DescribedGroupMember15.rewrites (version : Int16) : Rewrites (DescribedGroupMember15.decode version {}) (DescribedGroupMember15.wire version) (DescribedGroupMember15.Fits version) :=
  ((.field (get := fun (t : DescribedGroupMember15) => t.MemberId) (set := fun (t : DescribedGroupMember15) x => { t with MemberId := x }) .string (fun _ => rfl) (fun _ => rfl) (fun _ _ => rfl) (fun _ _ => rfl) (fun _ _ => rfl) : RewriteStep _ (DescribedGroupMember15.first 0) (DescribedGroupMember15.first 1) _ _)
    |>.andThen (.onlyIf (g := version ≥ 4) (.field (get := fun (t : DescribedGroupMember15) => t.GroupInstanceId) (set := fun (t : DescribedGroupMember15) x => { t with GroupInstanceId := x }) .string (fun _ => rfl) (fun _ => rfl) (fun _ _ => rfl) (fun _ _ => rfl) (fun _ _ => rfl)) (fun _ => rfl) : RewriteStep _ (DescribedGroupMember15.first 1) (DescribedGroupMember15.first 2) _ _)
    |>.andThen (.field (get := fun (t : DescribedGroupMember15) => t.ClientId) (set := fun (t : DescribedGroupMember15) x => { t with ClientId := x }) .string (fun _ => rfl) (fun _ => rfl) (fun _ _ => rfl) (fun _ _ => rfl) (fun _ _ => rfl) : RewriteStep _ (DescribedGroupMember15.first 2) (DescribedGroupMember15.first 3) _ _)
    |>.andThen (.field (get := fun (t : DescribedGroupMember15) => t.ClientHost) (set := fun (t : DescribedGroupMember15) x => { t with ClientHost := x }) .string (fun _ => rfl) (fun _ => rfl) (fun _ _ => rfl) (fun _ _ => rfl) (fun _ _ => rfl) : RewriteStep _ (DescribedGroupMember15.first 3) (DescribedGroupMember15.first 4) _ _)
    |>.andThen (.field (get := fun (t : DescribedGroupMember15) => t.MemberMetadata) (set := fun (t : DescribedGroupMember15) x => { t with MemberMetadata := x }) .bytes (fun _ => rfl) (fun _ => rfl) (fun _ _ => rfl) (fun _ _ => rfl) (fun _ _ => rfl) : RewriteStep _ (DescribedGroupMember15.first 4) (DescribedGroupMember15.first 5) _ _)
    |>.andThen (.field (get := fun (t : DescribedGroupMember15) => t.MemberAssignment) (set := fun (t : DescribedGroupMember15) x => { t with MemberAssignment := x }) .bytes (fun _ => rfl) (fun _ => rfl) (fun _ _ => rfl) (fun _ _ => rfl) (fun _ _ => rfl) : RewriteStep _ (DescribedGroupMember15.first 5) (DescribedGroupMember15.first 6) _ _)).whole {} rfl (fun _ => rfl) (fun _ h => ⟨h.1.1.1.1.1, h.1.1.1.1.2, h.1.1.1.2, h.1.1.2, h.1.2, h.2⟩)

theorem DescribedGroup15.rewrites (version : Int16) : Rewrites (DescribedGroup15.decode version {}) (DescribedGroup15.wire version) (DescribedGroup15.Fits version) :=
  ((.field (get := fun (t : DescribedGroup15) => t.ErrorCode) (set := fun (t : DescribedGroup15) x => { t with ErrorCode := x }) .int16 (fun _ => rfl) (fun _ => rfl) (fun _ _ => rfl) (fun _ _ => rfl) (fun _ _ => rfl) : RewriteStep _ (DescribedGroup15.first 0) (DescribedGroup15.first 1) _ _)
    |>.andThen (.field (get := fun (t : DescribedGroup15) => t.GroupId) (set := fun (t : DescribedGroup15) x => { t with GroupId := x }) .string (fun _ => rfl) (fun _ => rfl) (fun _ _ => rfl) (fun _ _ => rfl) (fun _ _ => rfl) : RewriteStep _ (DescribedGroup15.first 1) (DescribedGroup15.first 2) _ _)
    |>.andThen (.field (get := fun (t : DescribedGroup15) => t.GroupState) (set := fun (t : DescribedGroup15) x => { t with GroupState := x }) .string (fun _ => rfl) (fun _ => rfl) (fun _ _ => rfl) (fun _ _ => rfl) (fun _ _ => rfl) : RewriteStep _ (DescribedGroup15.first 2) (DescribedGroup15.first 3) _ _)
    |>.andThen (.field (get := fun (t : DescribedGroup15) => t.ProtocolType) (set := fun (t : DescribedGroup15) x => { t with ProtocolType := x }) .string (fun _ => rfl) (fun _ => rfl) (fun _ _ => rfl) (fun _ _ => rfl) (fun _ _ => rfl) : RewriteStep _ (DescribedGroup15.first 3) (DescribedGroup15.first 4) _ _)
    |>.andThen (.field (get := fun (t : DescribedGroup15) => t.ProtocolData) (set := fun (t : DescribedGroup15) x => { t with ProtocolData := x }) .string (fun _ => rfl) (fun _ => rfl) (fun _ _ => rfl) (fun _ _ => rfl) (fun _ _ => rfl) : RewriteStep _ (DescribedGroup15.first 4) (DescribedGroup15.first 5) _ _)
    |>.andThen (.structs (get := fun (t : DescribedGroup15) => t.Members) (set := fun (t : DescribedGroup15) x => { t with Members := x }) (DescribedGroupMember15.rewrites version) (fun _ => rfl) (fun _ => rfl) (fun _ => rfl) (fun _ _ => rfl) (fun _ _ => rfl) (fun _ _ => rfl) : RewriteStep _ (DescribedGroup15.first 5) (DescribedGroup15.first 6) _ _)
    |>.andThen (.onlyIf (g := version ≥ 3) (.field (get := fun (t : DescribedGroup15) => t.AuthorizedOperations) (set := fun (t : DescribedGroup15) x => { t with AuthorizedOperations := x }) .int32 (fun _ => rfl) (fun _ => rfl) (fun _ _ => rfl) (fun _ _ => rfl) (fun _ _ => rfl)) (fun _ => rfl) : RewriteStep _ (DescribedGroup15.first 6) (DescribedGroup15.first 7) _ _)).whole {} rfl (fun _ => rfl) (fun _ h => ⟨h.1.1.1.1.1.2, h.1.1.1.1.2, h.1.1.1.2, h.1.1.2, h.1.2⟩)

theorem DescribeGroupsResponse.rewrites (version : Int16) : Rewrites (DescribeGroupsResponse.decode version {}) (DescribeGroupsResponse.wire version) (DescribeGroupsResponse.Fits version) :=
  ((.onlyIf (g := version ≥ 1) (.field (get := fun (t : DescribeGroupsResponse) => t.ThrottleTimeMs) (set := fun (t : DescribeGroupsResponse) x => { t with ThrottleTimeMs := x }) .int32 (fun _ => rfl) (fun _ => rfl) (fun _ _ => rfl) (fun _ _ => rfl) (fun _ _ => rfl)) (fun _ => rfl) : RewriteStep _ (DescribeGroupsResponse.first 0) (DescribeGroupsResponse.first 1) _ _)
    |>.andThen (.structs (get := fun (t : DescribeGroupsResponse) => t.Groups) (set := fun (t : DescribeGroupsResponse) x => { t with Groups := x }) (DescribedGroup15.rewrites version) (fun _ => rfl) (fun _ => rfl) (fun _ => rfl) (fun _ _ => rfl) (fun _ _ => rfl) (fun _ _ => rfl) : RewriteStep _ (DescribeGroupsResponse.first 1) (DescribeGroupsResponse.first 2) _ _)).whole {} rfl (fun _ => rfl) (fun _ h => ⟨h.2⟩)

theorem rewritesDescribeGroups : ∀ p ∈ typesDescribeGroups, ∀ v, Rewrites (p.1.decode v p.1.zero) (p.2.wire v) (p.2.Fits v) := by
  unfold typesDescribeGroups
  simp only [List.forall_mem_cons]
  exact ⟨DescribeGroupsRequest.rewrites, DescribeGroupsResponse.rewrites, DescribedGroup15.rewrites, DescribedGroupMember15.rewrites, fun _ h => absurd h (by simp)⟩

end Kafka.Msg
