import Verif.Message.Gate
import Verif.Gen.Spec.Heartbeat
/-!
Generated by tools/gen_messages.py: the version-dependent fields of the Heartbeat messages.
-/
set_option linter.unusedSimpArgs false
namespace Kafka.Msg

/-- `t.GroupInstanceId = x` -/
def HeartbeatRequest_with_GroupInstanceId (t : HeartbeatRequest) (x : GoString) : HeartbeatRequest := { t with GroupInstanceId := x }
/-- `HeartbeatRequest.GroupInstanceId` -/
def HeartbeatRequest.gateGroupInstanceId : Gate :=
  { M := HeartbeatRequest.type, L := HeartbeatRequest.layout, field := "GroupInstanceId", α := GoString, present := fun v => v ≥ 3,
    get := fun t => HeartbeatRequest.GroupInstanceId t, set := fun t x => HeartbeatRequest_with_GroupInstanceId t x }
theorem HeartbeatRequest.gateGroupInstanceId_holds : HeartbeatRequest.gateGroupInstanceId.Holds where
  get_set _ _ := rfl
  encode v h t x := by
    change HeartbeatRequest.encode v (HeartbeatRequest_with_GroupInstanceId t x) = HeartbeatRequest.encode v t
    change ¬(v ≥ 3) at h
    simp only [HeartbeatRequest.encode, HeartbeatRequest_with_GroupInstanceId, onlyIf_neg h]
  size v h t x := by
    change HeartbeatRequest.size v (HeartbeatRequest_with_GroupInstanceId t x) = HeartbeatRequest.size v t
    change ¬(v ≥ 3) at h
    simp only [HeartbeatRequest.size, HeartbeatRequest_with_GroupInstanceId, onlyIf_neg h]
  decode v h := by
    change ¬(v ≥ 3) at h
    refine (?_ : Keeps (fun t : HeartbeatRequest => t.GroupInstanceId) (HeartbeatRequest.decode v))
    unfold HeartbeatRequest.decode
    repeat' first
      | exact Keeps.absent h
      | apply Keeps.andThen
      | exact Keeps.field fun _ _ => rfl
      | exact Keeps.fieldStructs fun _ _ => rfl
      | apply Keeps.onlyIf
  carried v h t t0 t1 := by
    change (HeartbeatRequest.seen v t t0).GroupInstanceId = (HeartbeatRequest.seen v t t1).GroupInstanceId
    change v ≥ 3 at h
    simp only [HeartbeatRequest.seen, if_pos h]

/-- `t.ThrottleTimeMs = x` -/
def HeartbeatResponse_with_ThrottleTimeMs (t : HeartbeatResponse) (x : Int32) : HeartbeatResponse := { t with ThrottleTimeMs := x }
/-- `HeartbeatResponse.ThrottleTimeMs` -/
def HeartbeatResponse.gateThrottleTimeMs : Gate :=
  { M := HeartbeatResponse.type, L := HeartbeatResponse.layout, field := "ThrottleTimeMs", α := Int32, present := fun v => v ≥ 1,
    get := fun t => HeartbeatResponse.ThrottleTimeMs t, set := fun t x => HeartbeatResponse_with_ThrottleTimeMs t x }
theorem HeartbeatResponse.gateThrottleTimeMs_holds : HeartbeatResponse.gateThrottleTimeMs.Holds where
  get_set _ _ := rfl
  encode v h t x := by
    change HeartbeatResponse.encode v (HeartbeatResponse_with_ThrottleTimeMs t x) = HeartbeatResponse.encode v t
    change ¬(v ≥ 1) at h
    simp only [HeartbeatResponse.encode, HeartbeatResponse_with_ThrottleTimeMs, onlyIf_neg h]
  size v h t x := by
    change HeartbeatResponse.size v (HeartbeatResponse_with_ThrottleTimeMs t x) = HeartbeatResponse.size v t
    change ¬(v ≥ 1) at h
    simp only [HeartbeatResponse.size, HeartbeatResponse_with_ThrottleTimeMs, onlyIf_neg h]
  decode v h := by
    change ¬(v ≥ 1) at h
    refine (?_ : Keeps (fun t : HeartbeatResponse => t.ThrottleTimeMs) (HeartbeatResponse.decode v))
    unfold HeartbeatResponse.decode
    repeat' first
      | exact Keeps.absent h
      | apply Keeps.andThen
      | exact Keeps.field fun _ _ => rfl
      | exact Keeps.fieldStructs fun _ _ => rfl
      | apply Keeps.onlyIf
  carried v h t t0 t1 := by
    change (HeartbeatResponse.seen v t t0).ThrottleTimeMs = (HeartbeatResponse.seen v t t1).ThrottleTimeMs
    change v ≥ 1 at h
    simp only [HeartbeatResponse.seen, if_pos h]

/-- The version-dependent fields of the Heartbeat messages. -/
def gatesHeartbeat : List Gate :=
  [HeartbeatRequest.gateGroupInstanceId,
   HeartbeatResponse.gateThrottleTimeMs]

theorem gatesHeartbeat_hold : ∀ g ∈ gatesHeartbeat, g.Holds := by
  unfold gatesHeartbeat
  simp only [List.forall_mem_cons]
  exact ⟨HeartbeatRequest.gateGroupInstanceId_holds,
    HeartbeatResponse.gateThrottleTimeMs_holds,
    fun _ h => absurd h (by simp)⟩

end Kafka.Msg
