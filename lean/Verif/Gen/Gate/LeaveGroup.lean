import Verif.Message.Gate
import Verif.Gen.Spec.LeaveGroup
/-!
Generated by tools/gen_messages.py: the version-dependent fields of the LeaveGroup messages.
-/
set_option linter.unusedSimpArgs false
namespace Kafka.Msg

/-- `t.MemberId = x` -/
def LeaveGroupRequest_with_MemberId (t : LeaveGroupRequest) (x : GoString) : LeaveGroupRequest := { t with MemberId := x }
/-- `LeaveGroupRequest.MemberId` -/
def LeaveGroupRequest.gateMemberId : Gate :=
  { M := LeaveGroupRequest.type, L := LeaveGroupRequest.layout, field := "MemberId", α := GoString, present := fun v => v ≥ 0 ∧ v ≤ 2,
    get := fun t => LeaveGroupRequest.MemberId t, set := fun t x => LeaveGroupRequest_with_MemberId t x }
theorem LeaveGroupRequest.gateMemberId_holds : LeaveGroupRequest.gateMemberId.Holds where
  get_set _ _ := rfl
  encode v h t x := by
    change LeaveGroupRequest.encode v (LeaveGroupRequest_with_MemberId t x) = LeaveGroupRequest.encode v t
    change ¬(v ≥ 0 ∧ v ≤ 2) at h
    simp only [LeaveGroupRequest.encode, LeaveGroupRequest_with_MemberId, onlyIf_neg h]
  size v h t x := by
    change LeaveGroupRequest.size v (LeaveGroupRequest_with_MemberId t x) = LeaveGroupRequest.size v t
    change ¬(v ≥ 0 ∧ v ≤ 2) at h
    simp only [LeaveGroupRequest.size, LeaveGroupRequest_with_MemberId, onlyIf_neg h]
  decode v h := by
    change ¬(v ≥ 0 ∧ v ≤ 2) at h
    refine (?_ : Keeps (fun t : LeaveGroupRequest => t.MemberId) (LeaveGroupRequest.decode v))
    unfold LeaveGroupRequest.decode
    repeat' first
      | exact Keeps.absent h
      | apply Keeps.andThen
      | exact Keeps.field fun _ _ => rfl
      | exact Keeps.fieldStructs fun _ _ => rfl
      | apply Keeps.onlyIf
  carried v h t t0 t1 := by
    change (LeaveGroupRequest.seen v t t0).MemberId = (LeaveGroupRequest.seen v t t1).MemberId
    change v ≥ 0 ∧ v ≤ 2 at h
    simp only [LeaveGroupRequest.seen, if_pos h]

/-- `t.Members = x` -/
def LeaveGroupRequest_with_Members (t : LeaveGroupRequest) (x : Slice MemberIdentity13) : LeaveGroupRequest := { t with Members := x }
/-- `LeaveGroupRequest.Members` -/
def LeaveGroupRequest.gateMembers : Gate :=
  { M := LeaveGroupRequest.type, L := LeaveGroupRequest.layout, field := "Members", α := Slice MemberIdentity13, present := fun v => v ≥ 3,
    get := fun t => LeaveGroupRequest.Members t, set := fun t x => LeaveGroupRequest_with_Members t x }
theorem LeaveGroupRequest.gateMembers_holds : LeaveGroupRequest.gateMembers.Holds where
  get_set _ _ := rfl
  encode v h t x := by
    change LeaveGroupRequest.encode v (LeaveGroupRequest_with_Members t x) = LeaveGroupRequest.encode v t
    change ¬(v ≥ 3) at h
    simp only [LeaveGroupRequest.encode, LeaveGroupRequest_with_Members, onlyIf_neg h]
  size v h t x := by
    change LeaveGroupRequest.size v (LeaveGroupRequest_with_Members t x) = LeaveGroupRequest.size v t
    change ¬(v ≥ 3) at h
    simp only [LeaveGroupRequest.size, LeaveGroupRequest_with_Members, onlyIf_neg h]
  decode v h := by
    change ¬(v ≥ 3) at h
    refine (?_ : Keeps (fun t : LeaveGroupRequest => t.Members) (LeaveGroupRequest.decode v))
    unfold LeaveGroupRequest.decode
    repeat' first
      | exact Keeps.absent h
      | apply Keeps.andThen
      | exact Keeps.field fun _ _ => rfl
      | exact Keeps.fieldStructs fun _ _ => rfl
      | apply Keeps.onlyIf
  carried v h t t0 t1 := by
    change (LeaveGroupRequest.seen v t t0).Members = (LeaveGroupRequest.seen v t t1).Members
    change v ≥ 3 at h
    simp only [LeaveGroupRequest.seen, if_pos h]

/-- `t.MemberId = x` -/
def MemberIdentity13_with_MemberId (t : MemberIdentity13) (x : GoString) : MemberIdentity13 := { t with MemberId := x }
/-- `MemberIdentity13.MemberId` -/
def MemberIdentity13.gateMemberId : Gate :=
  { M := MemberIdentity13.type, L := MemberIdentity13.layout, field := "MemberId", α := GoString, present := fun v => v ≥ 3,
    get := fun t => MemberIdentity13.MemberId t, set := fun t x => MemberIdentity13_with_MemberId t x }
theorem MemberIdentity13.gateMemberId_holds : MemberIdentity13.gateMemberId.Holds where
  get_set _ _ := rfl
  encode v h t x := by
    change MemberIdentity13.encode v (MemberIdentity13_with_MemberId t x) = MemberIdentity13.encode v t
    change ¬(v ≥ 3) at h
    simp only [MemberIdentity13.encode, MemberIdentity13_with_MemberId, onlyIf_neg h]
  size v h t x := by
    change MemberIdentity13.size v (MemberIdentity13_with_MemberId t x) = MemberIdentity13.size v t
    change ¬(v ≥ 3) at h
    simp only [MemberIdentity13.size, MemberIdentity13_with_MemberId, onlyIf_neg h]
  decode v h := by
    change ¬(v ≥ 3) at h
    refine (?_ : Keeps (fun t : MemberIdentity13 => t.MemberId) (MemberIdentity13.decode v))
    unfold MemberIdentity13.decode
    repeat' first
      | exact Keeps.absent h
      | apply Keeps.andThen
      | exact Keeps.field fun _ _ => rfl
      | exact Keeps.fieldStructs fun _ _ => rfl
      | apply Keeps.onlyIf
  carried v h t t0 t1 := by
    change (MemberIdentity13.seen v t t0).MemberId = (MemberIdentity13.seen v t t1).MemberId
    change v ≥ 3 at h
    simp only [MemberIdentity13.seen, if_pos h]

/-- `t.GroupInstanceId = x` -/
def MemberIdentity13_with_GroupInstanceId (t : MemberIdentity13) (x : GoString) : MemberIdentity13 := { t with GroupInstanceId := x }
/-- `MemberIdentity13.GroupInstanceId` -/
def MemberIdentity13.gateGroupInstanceId : Gate :=
  { M := MemberIdentity13.type, L := MemberIdentity13.layout, field := "GroupInstanceId", α := GoString, present := fun v => v ≥ 3,
    get := fun t => MemberIdentity13.GroupInstanceId t, set := fun t x => MemberIdentity13_with_GroupInstanceId t x }
theorem MemberIdentity13.gateGroupInstanceId_holds : MemberIdentity13.gateGroupInstanceId.Holds where
  get_set _ _ := rfl
  encode v h t x := by
    change MemberIdentity13.encode v (MemberIdentity13_with_GroupInstanceId t x) = MemberIdentity13.encode v t
    change ¬(v ≥ 3) at h
    simp only [MemberIdentity13.encode, MemberIdentity13_with_GroupInstanceId, onlyIf_neg h]
  size v h t x := by
    change MemberIdentity13.size v (MemberIdentity13_with_GroupInstanceId t x) = MemberIdentity13.size v t
    change ¬(v ≥ 3) at h
    simp only [MemberIdentity13.size, MemberIdentity13_with_GroupInstanceId, onlyIf_neg h]
  decode v h := by
    change ¬(v ≥ 3) at h
    refine (?_ : Keeps (fun t : MemberIdentity13 => t.GroupInstanceId) (MemberIdentity13.decode v))
    unfold MemberIdentity13.decode
    repeat' first
      | exact Keeps.absent h
      | apply Keeps.andThen
      | exact Keeps.field fun _ _ => rfl
      | exact Keeps.fieldStructs fun _ _ => rfl
      | apply Keeps.onlyIf
  carried v h t t0 t1 := by
    change (MemberIdentity13.seen v t t0).GroupInstanceId = (MemberIdentity13.seen v t t1).GroupInstanceId
    change v ≥ 3 at h
    simp only [MemberIdentity13.seen, if_pos h]

/-- `t.ThrottleTimeMs = x` -/
def LeaveGroupResponse_with_ThrottleTimeMs (t : LeaveGroupResponse) (x : Int32) : LeaveGroupResponse := { t with ThrottleTimeMs := x }
/-- `LeaveGroupResponse.ThrottleTimeMs` -/
def LeaveGroupResponse.gateThrottleTimeMs : Gate :=
  { M := LeaveGroupResponse.type, L := LeaveGroupResponse.layout, field := "ThrottleTimeMs", α := Int32, present := fun v => v ≥ 1,
    get := fun t => LeaveGroupResponse.ThrottleTimeMs t, set := fun t x => LeaveGroupResponse_with_ThrottleTimeMs t x }
theorem LeaveGroupResponse.gateThrottleTimeMs_holds : LeaveGroupResponse.gateThrottleTimeMs.Holds where
  get_set _ _ := rfl
  encode v h t x := by
    change LeaveGroupResponse.encode v (LeaveGroupResponse_with_ThrottleTimeMs t x) = LeaveGroupResponse.encode v t
    change ¬(v ≥ 1) at h
    simp only [LeaveGroupResponse.encode, LeaveGroupResponse_with_ThrottleTimeMs, onlyIf_neg h]
  size v h t x := by
    change LeaveGroupResponse.size v (LeaveGroupResponse_with_ThrottleTimeMs t x) = LeaveGroupResponse.size v t
    change ¬(v ≥ 1) at h
    simp only [LeaveGroupResponse.size, LeaveGroupResponse_with_ThrottleTimeMs, onlyIf_neg h]
  decode v h := by
    change ¬(v ≥ 1) at h
    refine (?_ : Keeps (fun t : LeaveGroupResponse => t.ThrottleTimeMs) (LeaveGroupResponse.decode v))
    unfold LeaveGroupResponse.decode
    repeat' first
      | exact Keeps.absent h
      | apply Keeps.andThen
      | exact Keeps.field fun _ _ => rfl
      | exact Keeps.fieldStructs fun _ _ => rfl
      | apply Keeps.onlyIf
  carried v h t t0 t1 := by
    change (LeaveGroupResponse.seen v t t0).ThrottleTimeMs = (LeaveGroupResponse.seen v t t1).ThrottleTimeMs
    change v ≥ 1 at h
    simp only [LeaveGroupResponse.seen, if_pos h]

/-- `t.Members = x` -/
def LeaveGroupResponse_with_Members (t : LeaveGroupResponse) (x : Slice MemberResponse13) : LeaveGroupResponse := { t with Members := x }
/-- `LeaveGroupResponse.Members` -/
def LeaveGroupResponse.gateMembers : Gate :=
  { M := LeaveGroupResponse.type, L := LeaveGroupResponse.layout, field := "Members", α := Slice MemberResponse13, present := fun v => v ≥ 3,
    get := fun t => LeaveGroupResponse.Members t, set := fun t x => LeaveGroupResponse_with_Members t x }
theorem LeaveGroupResponse.gateMembers_holds : LeaveGroupResponse.gateMembers.Holds where
  get_set _ _ := rfl
  encode v h t x := by
    change LeaveGroupResponse.encode v (LeaveGroupResponse_with_Members t x) = LeaveGroupResponse.encode v t
    change ¬(v ≥ 3) at h
    simp only [LeaveGroupResponse.encode, LeaveGroupResponse_with_Members, onlyIf_neg h]
  size v h t x := by
    change LeaveGroupResponse.size v (LeaveGroupResponse_with_Members t x) = LeaveGroupResponse.size v t
    change ¬(v ≥ 3) at h
    simp only [LeaveGroupResponse.size, LeaveGroupResponse_with_Members, onlyIf_neg h]
  decode v h := by
    change ¬(v ≥ 3) at h
    refine (?_ : Keeps (fun t : LeaveGroupResponse => t.Members) (LeaveGroupResponse.decode v))
    unfold LeaveGroupResponse.decode
    repeat' first
      | exact Keeps.absent h
      | apply Keeps.andThen
      | exact Keeps.field fun _ _ => rfl
      | exact Keeps.fieldStructs fun _ _ => rfl
      | apply Keeps.onlyIf
  carried v h t t0 t1 := by
    change (LeaveGroupResponse.seen v t t0).Members = (LeaveGroupResponse.seen v t t1).Members
    change v ≥ 3 at h
    simp only [LeaveGroupResponse.seen, if_pos h]

/-- `t.MemberId = x` -/
def MemberResponse13_with_MemberId (t : MemberResponse13) (x : GoString) : MemberResponse13 := { t with MemberId := x }
/-- `MemberResponse13.MemberId` -/
def MemberResponse13.gateMemberId : Gate :=
  { M := MemberResponse13.type, L := MemberResponse13.layout, field := "MemberId", α := GoString, present := fun v => v ≥ 3,
    get := fun t => MemberResponse13.MemberId t, set := fun t x => MemberResponse13_with_MemberId t x }
theorem MemberResponse13.gateMemberId_holds : MemberResponse13.gateMemberId.Holds where
  get_set _ _ := rfl
  encode v h t x := by
    change MemberResponse13.encode v (MemberResponse13_with_MemberId t x) = MemberResponse13.encode v t
    change ¬(v ≥ 3) at h
    simp only [MemberResponse13.encode, MemberResponse13_with_MemberId, onlyIf_neg h]
  size v h t x := by
    change MemberResponse13.size v (MemberResponse13_with_MemberId t x) = MemberResponse13.size v t
    change ¬(v ≥ 3) at h
    simp only [MemberResponse13.size, MemberResponse13_with_MemberId, onlyIf_neg h]
  decode v h := by
    change ¬(v ≥ 3) at h
    refine (?_ : Keeps (fun t : MemberResponse13 => t.MemberId) (MemberResponse13.decode v))
    unfold MemberResponse13.decode
    repeat' first
      | exact Keeps.absent h
      | apply Keeps.andThen
      | exact Keeps.field fun _ _ => rfl
      | exact Keeps.fieldStructs fun _ _ => rfl
      | apply Keeps.onlyIf
  carried v h t t0 t1 := by
    change (MemberResponse13.seen v t t0).MemberId = (MemberResponse13.seen v t t1).MemberId
    change v ≥ 3 at h
    simp only [MemberResponse13.seen, if_pos h]

/-- `t.GroupInstanceId = x` -/
def MemberResponse13_with_GroupInstanceId (t : MemberResponse13) (x : GoString) : MemberResponse13 := { t with GroupInstanceId := x }
/-- `MemberResponse13.GroupInstanceId` -/
def MemberResponse13.gateGroupInstanceId : Gate :=
  { M := MemberResponse13.type, L := MemberResponse13.layout, field := "GroupInstanceId", α := GoString, present := fun v => v ≥ 3,
    get := fun t => MemberResponse13.GroupInstanceId t, set := fun t x => MemberResponse13_with_GroupInstanceId t x }
theorem MemberResponse13.gateGroupInstanceId_holds : MemberResponse13.gateGroupInstanceId.Holds where
  get_set _ _ := rfl
  encode v h t x := by
    change MemberResponse13.encode v (MemberResponse13_with_GroupInstanceId t x) = MemberResponse13.encode v t
    change ¬(v ≥ 3) at h
    simp only [MemberResponse13.encode, MemberResponse13_with_GroupInstanceId, onlyIf_neg h]
  size v h t x := by
    change MemberResponse13.size v (MemberResponse13_with_GroupInstanceId t x) = MemberResponse13.size v t
    change ¬(v ≥ 3) at h
    simp only [MemberResponse13.size, MemberResponse13_with_GroupInstanceId, onlyIf_neg h]
  decode v h := by
    change ¬(v ≥ 3) at h
    refine (?_ : Keeps (fun t : MemberResponse13 => t.GroupInstanceId) (MemberResponse13.decode v))
    unfold MemberResponse13.decode
    repeat' first
      | exact Keeps.absent h
      | apply Keeps.andThen
      | exact Keeps.field fun _ _ => rfl
      | exact Keeps.fieldStructs fun _ _ => rfl
      | apply Keeps.onlyIf
  carried v h t t0 t1 := by
    change (MemberResponse13.seen v t t0).GroupInstanceId = (MemberResponse13.seen v t t1).GroupInstanceId
    change v ≥ 3 at h
    simp only [MemberResponse13.seen, if_pos h]

/-- `t.ErrorCode = x` -/
def MemberResponse13_with_ErrorCode (t : MemberResponse13) (x : Int16) : MemberResponse13 := { t with ErrorCode := x }
/-- `MemberResponse13.ErrorCode` -/
def MemberResponse13.gateErrorCode : Gate :=
  { M := MemberResponse13.type, L := MemberResponse13.layout, field := "ErrorCode", α := Int16, present := fun v => v ≥ 3,
    get := fun t => MemberResponse13.ErrorCode t, set := fun t x => MemberResponse13_with_ErrorCode t x }
theorem MemberResponse13.gateErrorCode_holds : MemberResponse13.gateErrorCode.Holds where
  get_set _ _ := rfl
  encode v h t x := by
    change MemberResponse13.encode v (MemberResponse13_with_ErrorCode t x) = MemberResponse13.encode v t
    change ¬(v ≥ 3) at h
    simp only [MemberResponse13.encode, MemberResponse13_with_ErrorCode, onlyIf_neg h]
  size v h t x := by
    change MemberResponse13.size v (MemberResponse13_with_ErrorCode t x) = MemberResponse13.size v t
    change ¬(v ≥ 3) at h
    simp only [MemberResponse13.size, MemberResponse13_with_ErrorCode, onlyIf_neg h]
  decode v h := by
    change ¬(v ≥ 3) at h
    refine (?_ : Keeps (fun t : MemberResponse13 => t.ErrorCode) (MemberResponse13.decode v))
    unfold MemberResponse13.decode
    repeat' first
      | exact Keeps.absent h
      | apply Keeps.andThen
      | exact Keeps.field fun _ _ => rfl
      | exact Keeps.fieldStructs fun _ _ => rfl
      | apply Keeps.onlyIf
  carried v h t t0 t1 := by
    change (MemberResponse13.seen v t t0).ErrorCode = (MemberResponse13.seen v t t1).ErrorCode
    change v ≥ 3 at h
    simp only [MemberResponse13.seen, if_pos h]

/-- The version-dependent fields of the LeaveGroup messages. -/
def gatesLeaveGroup : List Gate :=
  [LeaveGroupRequest.gateMemberId,
   LeaveGroupRequest.gateMembers,
   MemberIdentity13.gateMemberId,
   MemberIdentity13.gateGroupInstanceId,
   LeaveGroupResponse.gateThrottleTimeMs,
   LeaveGroupResponse.gateMembers,
   MemberResponse13.gateMemberId,
   MemberResponse13.gateGroupInstanceId,
   MemberResponse13.gateErrorCode]

theorem gatesLeaveGroup_hold : ∀ g ∈ gatesLeaveGroup, g.Holds := by
  unfold gatesLeaveGroup
  simp only [List.forall_mem_cons]
  exact ⟨LeaveGroupRequest.gateMemberId_holds,
    LeaveGroupRequest.gateMembers_holds,
    MemberIdentity13.gateMemberId_holds,
    MemberIdentity13.gateGroupInstanceId_holds,
    LeaveGroupResponse.gateThrottleTimeMs_holds,
    LeaveGroupResponse.gateMembers_holds,
    MemberResponse13.gateMemberId_holds,
    MemberResponse13.gateGroupInstanceId_holds,
    MemberResponse13.gateErrorCode_holds,
    fun _ h => absurd h (by simp)⟩

end Kafka.Msg
