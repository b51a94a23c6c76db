import Verif.Message.Reuse
import Verif.Gen.Spec.DescribeGroups
/-!
Generated by tools/gen_messages.py: decoding into DescribeGroups messages used before.
-/
set_option linter.unusedSimpArgs false
set_option linter.unusedVariables false
namespace Kafka.Msg

/-- What `t0` becomes where a new `DescribeGroupsRequest` becomes `y`. -/
def DescribeGroupsRequest.over (version : Int16) (y t0 : DescribeGroupsRequest) : DescribeGroupsRequest :=
  { Groups := y.Groups,
    IncludeAuthorizedOperations := if version ≥ 3 then y.IncludeAuthorizedOperations else t0.IncludeAuthorizedOperations }

/-- An array of structures is nil. -/
def DescribeGroupsRequest.Nulls (_version : Int16) (_y : DescribeGroupsRequest) : Prop :=
  False

/-- `DescribeGroupsRequest` in use again. -/
def DescribeGroupsRequest.reuse : Reuse DescribeGroupsRequest.type := { over := DescribeGroupsRequest.over, Nulls := DescribeGroupsRequest.Nulls }

/-- The same after the first `k` statements of `Decode`. -/
def DescribeGroupsRequest.overAt (version : Int16) (k : Nat) (y t0 : DescribeGroupsRequest) : DescribeGroupsRequest :=
  { Groups := upto k 0 (y.Groups) t0.Groups,
    IncludeAuthorizedOperations := upto k 1 (if version ≥ 3 then y.IncludeAuthorizedOperations else t0.IncludeAuthorizedOperations) t0.IncludeAuthorizedOperations }

theorem DescribeGroupsRequest.sim (v : Int16) (t0 : DescribeGroupsRequest) : Sim (DescribeGroupsRequest.overAt v 0 · t0) (DescribeGroupsRequest.overAt v 2 · t0) (DescribeGroupsRequest.decode v) :=
  ((.field fun _ _ => rfl) : Sim (DescribeGroupsRequest.overAt v 0 · t0) (DescribeGroupsRequest.overAt v 1 · t0) _)
    |>.andThen ((.onlyIf (fun hc => .field fun _ _ => by simp only [DescribeGroupsRequest.overAt, if_pos hc]; rfl) fun hc _ => by simp only [DescribeGroupsRequest.overAt, if_neg hc]; rfl) : Sim (DescribeGroupsRequest.overAt v 1 · t0) (DescribeGroupsRequest.overAt v 2 · t0) _)
theorem DescribeGroupsRequest.reusable : DescribeGroupsRequest.reuse.Holds DescribeGroupsRequest.layout where
  decode v t0 d := by
    have h := DescribeGroupsRequest.sim v t0 {} d
    have e : DescribeGroupsRequest.overAt v 0 {} t0 = t0 := by first | rfl | (simp only [DescribeGroupsRequest.overAt, upto_zero, Option.none_or, ite_self] <;> rfl)
    simp only [e] at h
    exact h
  same v y t0 _h := (app_congr rfl (again_opt Wire.bool y.IncludeAuthorizedOperations t0.IncludeAuthorizedOperations))
  stale _ _ h := h.elim

/-- What `t0` becomes where a new `DescribedGroupMember15` becomes `y`. -/
def DescribedGroupMember15.over (version : Int16) (y t0 : DescribedGroupMember15) : DescribedGroupMember15 :=
  { MemberId := y.MemberId,
    GroupInstanceId := if version ≥ 4 then y.GroupInstanceId else t0.GroupInstanceId,
    ClientId := y.ClientId,
    ClientHost := y.ClientHost,
    MemberMetadata := y.MemberMetadata,
    MemberAssignment := y.MemberAssignment }

/-- An array of structures is nil. -/
def DescribedGroupMember15.Nulls (_version : Int16) (_y : DescribedGroupMember15) : Prop :=
  False

/-- `DescribedGroupMember15` in use again. -/
def DescribedGroupMember15.reuse : Reuse DescribedGroupMember15.type := { over := DescribedGroupMember15.over, Nulls := DescribedGroupMember15.Nulls }

/-- The same after the first `k` statements of `Decode`. -/
def DescribedGroupMember15.overAt (version : Int16) (k : Nat) (y t0 : DescribedGroupMember15) : DescribedGroupMember15 :=
  { MemberId := upto k 0 (y.MemberId) t0.MemberId,
    GroupInstanceId := upto k 1 (if version ≥ 4 then y.GroupInstanceId else t0.GroupInstanceId) t0.GroupInstanceId,
    ClientId := upto k 2 (y.ClientId) t0.ClientId,
    ClientHost := upto k 3 (y.ClientHost) t0.ClientHost,
    MemberMetadata := upto k 4 (y.MemberMetadata) t0.MemberMetadata,
    MemberAssignment := upto k 5 (y.MemberAssignment) t0.MemberAssignment }

theorem DescribedGroupMember15.sim (v : Int16) (t0 : DescribedGroupMember15) : Sim (DescribedGroupMember15.overAt v 0 · t0) (DescribedGroupMember15.overAt v 6 · t0) (DescribedGroupMember15.decode v) :=
  ((.field fun _ _ => rfl) : Sim (DescribedGroupMember15.overAt v 0 · t0) (DescribedGroupMember15.overAt v 1 · t0) _)
    |>.andThen ((.onlyIf (fun hc => .field fun _ _ => by simp only [DescribedGroupMember15.overAt, if_pos hc]; rfl) fun hc _ => by simp only [DescribedGroupMember15.overAt, if_neg hc]; rfl) : Sim (DescribedGroupMember15.overAt v 1 · t0) (DescribedGroupMember15.overAt v 2 · t0) _)
    |>.andThen ((.field fun _ _ => rfl) : Sim (DescribedGroupMember15.overAt v 2 · t0) (DescribedGroupMember15.overAt v 3 · t0) _)
    |>.andThen ((.field fun _ _ => rfl) : Sim (DescribedGroupMember15.overAt v 3 · t0) (DescribedGroupMember15.overAt v 4 · t0) _)
    |>.andThen ((.field fun _ _ => rfl) : Sim (DescribedGroupMember15.overAt v 4 · t0) (DescribedGroupMember15.overAt v 5 · t0) _)
    |>.andThen ((.field fun _ _ => rfl) : Sim (DescribedGroupMember15.overAt v 5 · t0) (DescribedGroupMember15.overAt v 6 · t0) _)
theorem DescribedGroupMember15.reusable : DescribedGroupMember15.reuse.Holds DescribedGroupMember15.layout where
  decode v t0 d := by
    have h := DescribedGroupMember15.sim v t0 {} d
    have e : DescribedGroupMember15.overAt v 0 {} t0 = t0 := by first | rfl | (simp only [DescribedGroupMember15.overAt, upto_zero, Option.none_or, ite_self] <;> rfl)
    simp only [e] at h
    exact h
  same v y t0 _h := (app_congr (app_congr (app_congr (app_congr (app_congr rfl (again_opt Wire.string y.GroupInstanceId t0.GroupInstanceId)) rfl) rfl) rfl) rfl)
  stale _ _ h := h.elim

/-- What `t0` becomes where a new `DescribedGroup15` becomes `y`. -/
def DescribedGroup15.over (version : Int16) (y t0 : DescribedGroup15) : DescribedGroup15 :=
  { ErrorCode := y.ErrorCode,
    GroupId := y.GroupId,
    GroupState := y.GroupState,
    ProtocolType := y.ProtocolType,
    ProtocolData := y.ProtocolData,
    Members := y.Members.or t0.Members,
    AuthorizedOperations := if version ≥ 3 then y.AuthorizedOperations else t0.AuthorizedOperations }

/-- An array of structures is nil. -/
def DescribedGroup15.Nulls (_version : Int16) (y : DescribedGroup15) : Prop :=
  y.Members = none

/-- `DescribedGroup15` in use again. -/
def DescribedGroup15.reuse : Reuse DescribedGroup15.type := { over := DescribedGroup15.over, Nulls := DescribedGroup15.Nulls }

/-- The same after the first `k` statements of `Decode`. -/
def DescribedGroup15.overAt (version : Int16) (k : Nat) (y t0 : DescribedGroup15) : DescribedGroup15 :=
  { ErrorCode := upto k 0 (y.ErrorCode) t0.ErrorCode,
    GroupId := upto k 1 (y.GroupId) t0.GroupId,
    GroupState := upto k 2 (y.GroupState) t0.GroupState,
    ProtocolType := upto k 3 (y.ProtocolType) t0.ProtocolType,
    ProtocolData := upto k 4 (y.ProtocolData) t0.ProtocolData,
    Members := y.Members.or t0.Members,
    AuthorizedOperations := upto k 6 (if version ≥ 3 then y.AuthorizedOperations else t0.AuthorizedOperations) t0.AuthorizedOperations }

theorem DescribedGroup15.sim (v : Int16) (t0 : DescribedGroup15) : Sim (DescribedGroup15.overAt v 0 · t0) (DescribedGroup15.overAt v 7 · t0) (DescribedGroup15.decode v) :=
  ((.field fun _ _ => rfl) : Sim (DescribedGroup15.overAt v 0 · t0) (DescribedGroup15.overAt v 1 · t0) _)
    |>.andThen ((.field fun _ _ => rfl) : Sim (DescribedGroup15.overAt v 1 · t0) (DescribedGroup15.overAt v 2 · t0) _)
    |>.andThen ((.field fun _ _ => rfl) : Sim (DescribedGroup15.overAt v 2 · t0) (DescribedGroup15.overAt v 3 · t0) _)
    |>.andThen ((.field fun _ _ => rfl) : Sim (DescribedGroup15.overAt v 3 · t0) (DescribedGroup15.overAt v 4 · t0) _)
    |>.andThen ((.field fun _ _ => rfl) : Sim (DescribedGroup15.overAt v 4 · t0) (DescribedGroup15.overAt v 5 · t0) _)
    |>.andThen ((.structs (fun _ _ => rfl) fun _ => rfl) : Sim (DescribedGroup15.overAt v 5 · t0) (DescribedGroup15.overAt v 6 · t0) _)
    |>.andThen ((.onlyIf (fun hc => .field fun _ _ => by simp only [DescribedGroup15.overAt, if_pos hc]; rfl) fun hc _ => by simp only [DescribedGroup15.overAt, if_neg hc]; rfl) : Sim (DescribedGroup15.overAt v 6 · t0) (DescribedGroup15.overAt v 7 · t0) _)
theorem DescribedGroup15.reusable : DescribedGroup15.reuse.Holds DescribedGroup15.layout where
  decode v t0 d := by
    have h := DescribedGroup15.sim v t0 {} d
    have e : DescribedGroup15.overAt v 0 {} t0 = t0 := by first | rfl | (simp only [DescribedGroup15.overAt, upto_zero, Option.none_or, ite_self] <;> rfl)
    simp only [e] at h
    exact h
  same v y t0 h := (app_congr (app_congr (app_congr (app_congr (app_congr (app_congr rfl rfl) rfl) rfl) rfl) (same_or fun hn => h (hn))) (again_opt Wire.int32 y.AuthorizedOperations t0.AuthorizedOperations))
  stale v y h := by
    obtain h := h
    · exact ⟨({ Members := some [{}] } : DescribedGroup15), (app_ne_left (app_ne_right (app_congr (app_congr (app_congr (app_congr rfl rfl) rfl) rfl) rfl) (stale_or h)) (again_opt Wire.int32 y.AuthorizedOperations 0))⟩

/-- What `t0` becomes where a new `DescribeGroupsResponse` becomes `y`. -/
def DescribeGroupsResponse.over (version : Int16) (y t0 : DescribeGroupsResponse) : DescribeGroupsResponse :=
  { ThrottleTimeMs := if version ≥ 1 then y.ThrottleTimeMs else t0.ThrottleTimeMs,
    Groups := y.Groups.or t0.Groups }

/-- An array of structures is nil. -/
def DescribeGroupsResponse.Nulls (_version : Int16) (y : DescribeGroupsResponse) : Prop :=
  y.Groups = none

/-- `DescribeGroupsResponse` in use again. -/
def DescribeGroupsResponse.reuse : Reuse DescribeGroupsResponse.type := { over := DescribeGroupsResponse.over, Nulls := DescribeGroupsResponse.Nulls }

/-- The same after the first `k` statements of `Decode`. -/
def DescribeGroupsResponse.overAt (version : Int16) (k : Nat) (y t0 : DescribeGroupsResponse) : DescribeGroupsResponse :=
  { ThrottleTimeMs := upto k 0 (if version ≥ 1 then y.ThrottleTimeMs else t0.ThrottleTimeMs) t0.ThrottleTimeMs,
    Groups := y.Groups.or t0.Groups }

theorem DescribeGroupsResponse.sim (v : Int16) (t0 : DescribeGroupsResponse) : Sim (DescribeGroupsResponse.overAt v 0 · t0) (DescribeGroupsResponse.overAt v 2 · t0) (DescribeGroupsResponse.decode v) :=
  ((.onlyIf (fun hc => .field fun _ _ => by simp only [DescribeGroupsResponse.overAt, if_pos hc]; rfl) fun hc _ => by simp only [DescribeGroupsResponse.overAt, if_neg hc]; rfl) : Sim (DescribeGroupsResponse.overAt v 0 · t0) (DescribeGroupsResponse.overAt v 1 · t0) _)
    |>.andThen ((.structs (fun _ _ => rfl) fun _ => rfl) : Sim (DescribeGroupsResponse.overAt v 1 · t0) (DescribeGroupsResponse.overAt v 2 · t0) _)
theorem DescribeGroupsResponse.reusable : DescribeGroupsResponse.reuse.Holds DescribeGroupsResponse.layout where
  decode v t0 d := by
    have h := DescribeGroupsResponse.sim v t0 {} d
    have e : DescribeGroupsResponse.overAt v 0 {} t0 = t0 := by first | rfl | (simp only [DescribeGroupsResponse.overAt, upto_zero, Option.none_or, ite_self] <;> rfl)
    simp only [e] at h
    exact h
  same v y t0 h := (app_congr (again_opt Wire.int32 y.ThrottleTimeMs t0.ThrottleTimeMs) (same_or fun hn => h (hn)))
  stale v y h := by
    obtain h := h
    · exact ⟨({ Groups := some [{}] } : DescribeGroupsResponse), (app_ne_right (again_opt Wire.int32 y.ThrottleTimeMs 0) (stale_or h))⟩

/-- The structures of the DescribeGroups messages. -/
def reuseDescribeGroups : List (Σ (M : MsgType) (_ : Layout M), Reuse M) :=
  [⟨DescribeGroupsRequest.type, DescribeGroupsRequest.layout, DescribeGroupsRequest.reuse⟩,
   ⟨DescribeGroupsResponse.type, DescribeGroupsResponse.layout, DescribeGroupsResponse.reuse⟩,
   ⟨DescribedGroup15.type, DescribedGroup15.layout, DescribedGroup15.reuse⟩,
   ⟨DescribedGroupMember15.type, DescribedGroupMember15.layout, DescribedGroupMember15.reuse⟩]
theorem reuseDescribeGroups_holds : ∀ p ∈ reuseDescribeGroups, p.2.2.Holds p.2.1 := by
  unfold reuseDescribeGroups
  simp only [List.forall_mem_cons]
  exact ⟨DescribeGroupsRequest.reusable, DescribeGroupsResponse.reusable, DescribedGroup15.reusable, DescribedGroupMember15.reusable, fun _ h => absurd h (by simp)⟩

end Kafka.Msg
