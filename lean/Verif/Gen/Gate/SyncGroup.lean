import Verif.Message.Gate
import Verif.Gen.Spec.SyncGroup
/-!
Generated by tools/gen_messages.py: the version-dependent fields of the SyncGroup messages.
-/
set_option linter.unusedSimpArgs false
namespace Kafka.Msg

/-- `t.GroupInstanceId = x` -/
def SyncGroupRequest_with_GroupInstanceId (t : SyncGroupRequest) (x : GoString) : SyncGroupRequest := { t with GroupInstanceId := x }
/-- `SyncGroupRequest.GroupInstanceId` -/
def SyncGroupRequest.gateGroupInstanceId : Gate :=
  { M := SyncGroupRequest.type, L := SyncGroupRequest.layout, field := "GroupInstanceId", α := GoString, present := fun v => v ≥ 3,
    get := fun t => SyncGroupRequest.GroupInstanceId t, set := fun t x => SyncGroupRequest_with_GroupInstanceId t x }
theorem SyncGroupRequest.gateGroupInstanceId_holds : SyncGroupRequest.gateGroupInstanceId.Holds where
  get_set _ _ := rfl
  encode v h t x := by
    change SyncGroupRequest.encode v (SyncGroupRequest_with_GroupInstanceId t x) = SyncGroupRequest.encode v t
    change ¬(v ≥ 3) at h
    simp only [SyncGroupRequest.encode, SyncGroupRequest_with_GroupInstanceId, onlyIf_neg h]
  size v h t x := by
    change SyncGroupRequest.size v (SyncGroupRequest_with_GroupInstanceId t x) = SyncGroupRequest.size v t
    change ¬(v ≥ 3) at h
    simp only [SyncGroupRequest.size, SyncGroupRequest_with_GroupInstanceId, onlyIf_neg h]
  decode v h := by
    change ¬(v ≥ 3) at h
    refine (?_ : Keeps (fun t : SyncGroupRequest => t.GroupInstanceId) (SyncGroupRequest.decode v))
    unfold SyncGroupRequest.decode
    repeat' first
      | exact Keeps.absent h
      | apply Keeps.andThen
      | exact Keeps.field fun _ _ => rfl
      | exact Keeps.fieldStructs fun _ _ => rfl
      | apply Keeps.onlyIf
  carried v h t t0 t1 := by
    change (SyncGroupRequest.seen v t t0).GroupInstanceId = (SyncGroupRequest.seen v t t1).GroupInstanceId
    change v ≥ 3 at h
    simp only [SyncGroupRequest.seen, if_pos h]

/-- `t.ThrottleTimeMs = x` -/
def SyncGroupResponse_with_ThrottleTimeMs (t : SyncGroupResponse) (x : Int32) : SyncGroupResponse := { t with ThrottleTimeMs := x }
/-- `SyncGroupResponse.ThrottleTimeMs` -/
def SyncGroupResponse.gateThrottleTimeMs : Gate :=
  { M := SyncGroupResponse.type, L := SyncGroupResponse.layout, field := "ThrottleTimeMs", α := Int32, present := fun v => v ≥ 1,
    get := fun t => SyncGroupResponse.ThrottleTimeMs t, set := fun t x => SyncGroupResponse_with_ThrottleTimeMs t x }
theorem SyncGroupResponse.gateThrottleTimeMs_holds : SyncGroupResponse.gateThrottleTimeMs.Holds where
  get_set _ _ := rfl
  encode v h t x := by
    change SyncGroupResponse.encode v (SyncGroupResponse_with_ThrottleTimeMs t x) = SyncGroupResponse.encode v t
    change ¬(v ≥ 1) at h
    simp only [SyncGroupResponse.encode, SyncGroupResponse_with_ThrottleTimeMs, onlyIf_neg h]
  size v h t x := by
    change SyncGroupResponse.size v (SyncGroupResponse_with_ThrottleTimeMs t x) = SyncGroupResponse.size v t
    change ¬(v ≥ 1) at h
    simp only [SyncGroupResponse.size, SyncGroupResponse_with_ThrottleTimeMs, onlyIf_neg h]
  decode v h := by
    change ¬(v ≥ 1) at h
    refine (?_ : Keeps (fun t : SyncGroupResponse => t.ThrottleTimeMs) (SyncGroupResponse.decode v))
    unfold SyncGroupResponse.decode
    repeat' first
      | exact Keeps.absent h
      | apply Keeps.andThen
      | exact Keeps.field fun _ _ => rfl
      | exact Keeps.fieldStructs fun _ _ => rfl
      | apply Keeps.onlyIf
  carried v h t t0 t1 := by
    change (SyncGroupResponse.seen v t t0).ThrottleTimeMs = (SyncGroupResponse.seen v t t1).ThrottleTimeMs
    change v ≥ 1 at h
    simp only [SyncGroupResponse.seen, if_pos h]

/-- The version-dependent fields of the SyncGroup messages. -/
def gatesSyncGroup : List Gate :=
  [SyncGroupRequest.gateGroupInstanceId,
   SyncGroupResponse.gateThrottleTimeMs]

theorem gatesSyncGroup_hold : ∀ g ∈ gatesSyncGroup, g.Holds := by
  unfold gatesSyncGroup
  simp only [List.forall_mem_cons]
  exact ⟨SyncGroupRequest.gateGroupInstanceId_holds,
    SyncGroupResponse.gateThrottleTimeMs_holds,
    fun _ h => absurd h (by simp)⟩

end Kafka.Msg
