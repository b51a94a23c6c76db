import Verif.Message.Gate
import Verif.Gen.Spec.DescribeGroups
/-!
Generated by tools/gen_messages.py: the version-dependent fields of the DescribeGroups messages.
-/
set_option linter.unusedSimpArgs false
namespace Kafka.Msg

/-- `t.IncludeAuthorizedOperations = x` -/
def DescribeGroupsRequest_with_IncludeAuthorizedOperations (t : DescribeGroupsRequest) (x : Bool) : DescribeGroupsRequest := { t with IncludeAuthorizedOperations := x }
/-- `DescribeGroupsRequest.IncludeAuthorizedOperations` -/
def DescribeGroupsRequest.gateIncludeAuthorizedOperations : Gate :=
  { M := DescribeGroupsRequest.type, L := DescribeGroupsRequest.layout, field := "IncludeAuthorizedOperations", α := Bool, present := fun v => v ≥ 3,
    get := fun t => DescribeGroupsRequest.IncludeAuthorizedOperations t, set := fun t x => DescribeGroupsRequest_with_IncludeAuthorizedOperations t x }
theorem DescribeGroupsRequest.gateIncludeAuthorizedOperations_holds : DescribeGroupsRequest.gateIncludeAuthorizedOperations.Holds where
  get_set _ _ := rfl
  encode v h t x := by
    change DescribeGroupsRequest.encode v (DescribeGroupsRequest_with_IncludeAuthorizedOperations t x) = DescribeGroupsRequest.encode v t
    change ¬(v ≥ 3) at h
    simp only [DescribeGroupsRequest.encode, DescribeGroupsRequest_with_IncludeAuthorizedOperations, onlyIf_neg h]
  size v h t x := by
    change DescribeGroupsRequest.size v (DescribeGroupsRequest_with_IncludeAuthorizedOperations t x) = DescribeGroupsRequest.size v t
    change ¬(v ≥ 3) at h
    simp only [DescribeGroupsRequest.size, DescribeGroupsRequest_with_IncludeAuthorizedOperations, onlyIf_neg h]
  decode v h := by
    change ¬(v ≥ 3) at h
    refine (?_ : Keeps (fun t : DescribeGroupsRequest => t.IncludeAuthorizedOperations) (DescribeGroupsRequest.decode v))
    unfold DescribeGroupsRequest.decode
    repeat' first
      | exact Keeps.absent h
      | apply Keeps.andThen
      | exact Keeps.field fun _ _ => rfl
      | exact Keeps.fieldStructs fun _ _ => rfl
      | apply Keeps.onlyIf
  carried v h t t0 t1 := by
    change (DescribeGroupsRequest.seen v t t0).IncludeAuthorizedOperations = (DescribeGroupsRequest.seen v t t1).IncludeAuthorizedOperations
    change v ≥ 3 at h
    simp only [DescribeGroupsRequest.seen, if_pos h]

/-- `t.ThrottleTimeMs = x` -/
def DescribeGroupsResponse_with_ThrottleTimeMs (t : DescribeGroupsResponse) (x : Int32) : DescribeGroupsResponse := { t with ThrottleTimeMs := x }
/-- `DescribeGroupsResponse.ThrottleTimeMs` -/
def DescribeGroupsResponse.gateThrottleTimeMs : Gate :=
  { M := DescribeGroupsResponse.type, L := DescribeGroupsResponse.layout, field := "ThrottleTimeMs", α := Int32, present := fun v => v ≥ 1,
    get := fun t => DescribeGroupsResponse.ThrottleTimeMs t, set := fun t x => DescribeGroupsResponse_with_ThrottleTimeMs t x }
theorem DescribeGroupsResponse.gateThrottleTimeMs_holds : DescribeGroupsResponse.gateThrottleTimeMs.Holds where
  get_set _ _ := rfl
  encode v h t x := by
    change DescribeGroupsResponse.encode v (DescribeGroupsResponse_with_ThrottleTimeMs t x) = DescribeGroupsResponse.encode v t
    change ¬(v ≥ 1) at h
    simp only [DescribeGroupsResponse.encode, DescribeGroupsResponse_with_ThrottleTimeMs, onlyIf_neg h]
  size v h t x := by
    change DescribeGroupsResponse.size v (DescribeGroupsResponse_with_ThrottleTimeMs t x) = DescribeGroupsResponse.size v t
    change ¬(v ≥ 1) at h
    simp only [DescribeGroupsResponse.size, DescribeGroupsResponse_with_ThrottleTimeMs, onlyIf_neg h]
  decode v h := by
    change ¬(v ≥ 1) at h
    refine (?_ : Keeps (fun t : DescribeGroupsResponse => t.ThrottleTimeMs) (DescribeGroupsResponse.decode v))
    unfold DescribeGroupsResponse.decode
    repeat' first
      | exact Keeps.absent h
      | apply Keeps.andThen
      | exact Keeps.field fun _ _ => rfl
      | exact Keeps.fieldStructs fun _ _ => rfl
      | apply Keeps.onlyIf
  carried v h t t0 t1 := by
    change (DescribeGroupsResponse.seen v t t0).ThrottleTimeMs = (DescribeGroupsResponse.seen v t t1).ThrottleTimeMs
    change v ≥ 1 at h
    simp only [DescribeGroupsResponse.seen, if_pos h]

/-- `t.AuthorizedOperations = x` -/
def DescribedGroup15_with_AuthorizedOperations (t : DescribedGroup15) (x : Int32) : DescribedGroup15 := { t with AuthorizedOperations := x }
/-- `DescribedGroup15.AuthorizedOperations` -/
def DescribedGroup15.gateAuthorizedOperations : Gate :=
  { M := DescribedGroup15.type, L := DescribedGroup15.layout, field := "AuthorizedOperations", α := Int32, present := fun v => v ≥ 3,
    get := fun t => DescribedGroup15.AuthorizedOperations t, set := fun t x => DescribedGroup15_with_AuthorizedOperations t x }
theorem DescribedGroup15.gateAuthorizedOperations_holds : DescribedGroup15.gateAuthorizedOperations.Holds where
  get_set _ _ := rfl
  encode v h t x := by
    change DescribedGroup15.encode v (DescribedGroup15_with_AuthorizedOperations t x) = DescribedGroup15.encode v t
    change ¬(v ≥ 3) at h
    simp only [DescribedGroup15.encode, DescribedGroup15_with_AuthorizedOperations, onlyIf_neg h]
  size v h t x := by
    change DescribedGroup15.size v (DescribedGroup15_with_AuthorizedOperations t x) = DescribedGroup15.size v t
    change ¬(v ≥ 3) at h
    simp only [DescribedGroup15.size, DescribedGroup15_with_AuthorizedOperations, onlyIf_neg h]
  decode v h := by
    change ¬(v ≥ 3) at h
    refine (?_ : Keeps (fun t : DescribedGroup15 => t.AuthorizedOperations) (DescribedGroup15.decode v))
    unfold DescribedGroup15.decode
    repeat' first
      | exact Keeps.absent h
      | apply Keeps.andThen
      | exact Keeps.field fun _ _ => rfl
      | exact Keeps.fieldStructs fun _ _ => rfl
      | apply Keeps.onlyIf
  carried v h t t0 t1 := by
    change (DescribedGroup15.seen v t t0).AuthorizedOperations = (DescribedGroup15.seen v t t1).AuthorizedOperations
    change v ≥ 3 at h
    simp only [DescribedGroup15.seen, if_pos h]

/-- `t.GroupInstanceId = x` -/
def DescribedGroupMember15_with_GroupInstanceId (t : DescribedGroupMember15) (x : GoString) : DescribedGroupMember15 := { t with GroupInstanceId := x }
/-- `DescribedGroupMember15.GroupInstanceId` -/
def DescribedGroupMember15.gateGroupInstanceId : Gate :=
  { M := DescribedGroupMember15.type, L := DescribedGroupMember15.layout, field := "GroupInstanceId", α := GoString, present := fun v => v ≥ 4,
    get := fun t => DescribedGroupMember15.GroupInstanceId t, set := fun t x => DescribedGroupMember15_with_GroupInstanceId t x }
theorem DescribedGroupMember15.gateGroupInstanceId_holds : DescribedGroupMember15.gateGroupInstanceId.Holds where
  get_set _ _ := rfl
  encode v h t x := by
    change DescribedGroupMember15.encode v (DescribedGroupMember15_with_GroupInstanceId t x) = DescribedGroupMember15.encode v t
    change ¬(v ≥ 4) at h
    simp only [DescribedGroupMember15.encode, DescribedGroupMember15_with_GroupInstanceId, onlyIf_neg h]
  size v h t x := by
    change DescribedGroupMember15.size v (DescribedGroupMember15_with_GroupInstanceId t x) = DescribedGroupMember15.size v t
    change ¬(v ≥ 4) at h
    simp only [DescribedGroupMember15.size, DescribedGroupMember15_with_GroupInstanceId, onlyIf_neg h]
  decode v h := by
    change ¬(v ≥ 4) at h
    refine (?_ : Keeps (fun t : DescribedGroupMember15 => t.GroupInstanceId) (DescribedGroupMember15.decode v))
    unfold DescribedGroupMember15.decode
    repeat' first
      | exact Keeps.absent h
      | apply Keeps.andThen
      | exact Keeps.field fun _ _ => rfl
      | exact Keeps.fieldStructs fun _ _ => rfl
      | apply Keeps.onlyIf
  carried v h t t0 t1 := by
    change (DescribedGroupMember15.seen v t t0).GroupInstanceId = (DescribedGroupMember15.seen v t t1).GroupInstanceId
    change v ≥ 4 at h
    simp only [DescribedGroupMember15.seen, if_pos h]

/-- The version-dependent fields of the DescribeGroups messages. -/
def gatesDescribeGroups : List Gate :=
  [DescribeGroupsRequest.gateIncludeAuthorizedOperations,
   DescribeGroupsResponse.gateThrottleTimeMs,
   DescribedGroup15.gateAuthorizedOperations,
   DescribedGroupMember15.gateGroupInstanceId]

theorem gatesDescribeGroups_hold : ∀ g ∈ gatesDescribeGroups, g.Holds := by
  unfold gatesDescribeGroups
  simp only [List.forall_mem_cons]
  exact ⟨DescribeGroupsRequest.gateIncludeAuthorizedOperations_holds,
    DescribeGroupsResponse.gateThrottleTimeMs_holds,
    DescribedGroup15.gateAuthorizedOperations_holds,
    DescribedGroupMember15.gateGroupInstanceId_holds,
    fun _ h => absurd h (by simp)⟩

end Kafka.Msg
