import Verif.Message.Gate
import Verif.Gen.Spec.JoinGroup
/-!
Generated by tools/gen_messages.py: the version-dependent fields of the JoinGroup messages.
-/
set_option linter.unusedSimpArgs false
namespace Kafka.Msg

/-- `t.RebalanceTimeoutMs = x` -/
def JoinGroupRequest_with_RebalanceTimeoutMs (t : JoinGroupRequest) (x : Int32) : JoinGroupRequest := { t with RebalanceTimeoutMs := x }
/-- `JoinGroupRequest.RebalanceTimeoutMs` -/
def JoinGroupRequest.gateRebalanceTimeoutMs : Gate :=
  { M := JoinGroupRequest.type, L := JoinGroupRequest.layout, field := "RebalanceTimeoutMs", α := Int32, present := fun v => v ≥ 1,
    get := fun t => JoinGroupRequest.RebalanceTimeoutMs t, set := fun t x => JoinGroupRequest_with_RebalanceTimeoutMs t x }
theorem JoinGroupRequest.gateRebalanceTimeoutMs_holds : JoinGroupRequest.gateRebalanceTimeoutMs.Holds where
  get_set _ _ := rfl
  encode v h t x := by
    change JoinGroupRequest.encode v (JoinGroupRequest_with_RebalanceTimeoutMs t x) = JoinGroupRequest.encode v t
    change ¬(v ≥ 1) at h
    simp only [JoinGroupRequest.encode, JoinGroupRequest_with_RebalanceTimeoutMs, onlyIf_neg h]
  size v h t x := by
    change JoinGroupRequest.size v (JoinGroupRequest_with_RebalanceTimeoutMs t x) = JoinGroupRequest.size v t
    change ¬(v ≥ 1) at h
    simp only [JoinGroupRequest.size, JoinGroupRequest_with_RebalanceTimeoutMs, onlyIf_neg h]
  decode v h := by
    change ¬(v ≥ 1) at h
    refine (?_ : Keeps (fun t : JoinGroupRequest => t.RebalanceTimeoutMs) (JoinGroupRequest.decode v))
    unfold JoinGroupRequest.decode
    repeat' first
      | exact Keeps.absent h
      | apply Keeps.andThen
      | exact Keeps.field fun _ _ => rfl
      | exact Keeps.fieldStructs fun _ _ => rfl
      | apply Keeps.onlyIf
  carried v h t t0 t1 := by
    change (JoinGroupRequest.seen v t t0).RebalanceTimeoutMs = (JoinGroupRequest.seen v t t1).RebalanceTimeoutMs
    change v ≥ 1 at h
    simp only [JoinGroupRequest.seen, if_pos h]

/-- `t.GroupInstanceId = x` -/
def JoinGroupRequest_with_GroupInstanceId (t : JoinGroupRequest) (x : GoString) : JoinGroupRequest := { t with GroupInstanceId := x }
/-- `JoinGroupRequest.GroupInstanceId` -/
def JoinGroupRequest.gateGroupInstanceId : Gate :=
  { M := JoinGroupRequest.type, L := JoinGroupRequest.layout, field := "GroupInstanceId", α := GoString, present := fun v => v ≥ 5,
    get := fun t => JoinGroupRequest.GroupInstanceId t, set := fun t x => JoinGroupRequest_with_GroupInstanceId t x }
theorem JoinGroupRequest.gateGroupInstanceId_holds : JoinGroupRequest.gateGroupInstanceId.Holds where
  get_set _ _ := rfl
  encode v h t x := by
    change JoinGroupRequest.encode v (JoinGroupRequest_with_GroupInstanceId t x) = JoinGroupRequest.encode v t
    change ¬(v ≥ 5) at h
    simp only [JoinGroupRequest.encode, JoinGroupRequest_with_GroupInstanceId, onlyIf_neg h]
  size v h t x := by
    change JoinGroupRequest.size v (JoinGroupRequest_with_GroupInstanceId t x) = JoinGroupRequest.size v t
    change ¬(v ≥ 5) at h
    simp only [JoinGroupRequest.size, JoinGroupRequest_with_GroupInstanceId, onlyIf_neg h]
  decode v h := by
    change ¬(v ≥ 5) at h
    refine (?_ : Keeps (fun t : JoinGroupRequest => t.GroupInstanceId) (JoinGroupRequest.decode v))
    unfold JoinGroupRequest.decode
    repeat' first
      | exact Keeps.absent h
      | apply Keeps.andThen
      | exact Keeps.field fun _ _ => rfl
      | exact Keeps.fieldStructs fun _ _ => rfl
      | apply Keeps.onlyIf
  carried v h t t0 t1 := by
    change (JoinGroupRequest.seen v t t0).GroupInstanceId = (JoinGroupRequest.seen v t t1).GroupInstanceId
    change v ≥ 5 at h
    simp only [JoinGroupRequest.seen, if_pos h]

/-- `t.ThrottleTimeMs = x` -/
def JoinGroupResponse_with_ThrottleTimeMs (t : JoinGroupResponse) (x : Int32) : JoinGroupResponse := { t with ThrottleTimeMs := x }
/-- `JoinGroupResponse.ThrottleTimeMs` -/
def JoinGroupResponse.gateThrottleTimeMs : Gate :=
  { M := JoinGroupResponse.type, L := JoinGroupResponse.layout, field := "ThrottleTimeMs", α := Int32, present := fun v => v ≥ 2,
    get := fun t => JoinGroupResponse.ThrottleTimeMs t, set := fun t x => JoinGroupResponse_with_ThrottleTimeMs t x }
theorem JoinGroupResponse.gateThrottleTimeMs_holds : JoinGroupResponse.gateThrottleTimeMs.Holds where
  get_set _ _ := rfl
  encode v h t x := by
    change JoinGroupResponse.encode v (JoinGroupResponse_with_ThrottleTimeMs t x) = JoinGroupResponse.encode v t
    change ¬(v ≥ 2) at h
    simp only [JoinGroupResponse.encode, JoinGroupResponse_with_ThrottleTimeMs, onlyIf_neg h]
  size v h t x := by
    change JoinGroupResponse.size v (JoinGroupResponse_with_ThrottleTimeMs t x) = JoinGroupResponse.size v t
    change ¬(v ≥ 2) at h
    simp only [JoinGroupResponse.size, JoinGroupResponse_with_ThrottleTimeMs, onlyIf_neg h]
  decode v h := by
    change ¬(v ≥ 2) at h
    refine (?_ : Keeps (fun t : JoinGroupResponse => t.ThrottleTimeMs) (JoinGroupResponse.decode v))
    unfold JoinGroupResponse.decode
    repeat' first
      | exact Keeps.absent h
      | apply Keeps.andThen
      | exact Keeps.field fun _ _ => rfl
      | exact Keeps.fieldStructs fun _ _ => rfl
      | apply Keeps.onlyIf
  carried v h t t0 t1 := by
    change (JoinGroupResponse.seen v t t0).ThrottleTimeMs = (JoinGroupResponse.seen v t t1).ThrottleTimeMs
    change v ≥ 2 at h
    simp only [JoinGroupResponse.seen, if_pos h]

/-- `t.GroupInstanceId = x` -/
def JoinGroupResponseMember11_with_GroupInstanceId (t : JoinGroupResponseMember11) (x : GoString) : JoinGroupResponseMember11 := { t with GroupInstanceId := x }
/-- `JoinGroupResponseMember11.GroupInstanceId` -/
def JoinGroupResponseMember11.gateGroupInstanceId : Gate :=
  { M := JoinGroupResponseMember11.type, L := JoinGroupResponseMember11.layout, field := "GroupInstanceId", α := GoString, present := fun v => v ≥ 5,
    get := fun t => JoinGroupResponseMember11.GroupInstanceId t, set := fun t x => JoinGroupResponseMember11_with_GroupInstanceId t x }
theorem JoinGroupResponseMember11.gateGroupInstanceId_holds : JoinGroupResponseMember11.gateGroupInstanceId.Holds where
  get_set _ _ := rfl
  encode v h t x := by
    change JoinGroupResponseMember11.encode v (JoinGroupResponseMember11_with_GroupInstanceId t x) = JoinGroupResponseMember11.encode v t
    change ¬(v ≥ 5) at h
    simp only [JoinGroupResponseMember11.encode, JoinGroupResponseMember11_with_GroupInstanceId, onlyIf_neg h]
  size v h t x := by
    change JoinGroupResponseMember11.size v (JoinGroupResponseMember11_with_GroupInstanceId t x) = JoinGroupResponseMember11.size v t
    change ¬(v ≥ 5) at h
    simp only [JoinGroupResponseMember11.size, JoinGroupResponseMember11_with_GroupInstanceId, onlyIf_neg h]
  decode v h := by
    change ¬(v ≥ 5) at h
    refine (?_ : Keeps (fun t : JoinGroupResponseMember11 => t.GroupInstanceId) (JoinGroupResponseMember11.decode v))
    unfold JoinGroupResponseMember11.decode
    repeat' first
      | exact Keeps.absent h
      | apply Keeps.andThen
      | exact Keeps.field fun _ _ => rfl
      | exact Keeps.fieldStructs fun _ _ => rfl
      | apply Keeps.onlyIf
  carried v h t t0 t1 := by
    change (JoinGroupResponseMember11.seen v t t0).GroupInstanceId = (JoinGroupResponseMember11.seen v t t1).GroupInstanceId
    change v ≥ 5 at h
    simp only [JoinGroupResponseMember11.seen, if_pos h]

/-- The version-dependent fields of the JoinGroup messages. -/
def gatesJoinGroup : List Gate :=
  [JoinGroupRequest.gateRebalanceTimeoutMs,
   JoinGroupRequest.gateGroupInstanceId,
   JoinGroupResponse.gateThrottleTimeMs,
   JoinGroupResponseMember11.gateGroupInstanceId]

theorem gatesJoinGroup_hold : ∀ g ∈ gatesJoinGroup, g.Holds := by
  unfold gatesJoinGroup
  simp only [List.forall_mem_cons]
  exact ⟨JoinGroupRequest.gateRebalanceTimeoutMs_holds,
    JoinGroupRequest.gateGroupInstanceId_holds,
    JoinGroupResponse.gateThrottleTimeMs_holds,
    JoinGroupResponseMember11.gateGroupInstanceId_holds,
    fun _ h => absurd h (by simp)⟩

end Kafka.Msg
