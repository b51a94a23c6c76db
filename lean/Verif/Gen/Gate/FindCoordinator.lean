import Verif.Message.Gate
import Verif.Gen.Spec.FindCoordinator
/-!
Generated by tools/gen_messages.py: the version-dependent fields of the FindCoordinator messages.
-/
set_option linter.unusedSimpArgs false
namespace Kafka.Msg

/-- `t.KeyType = x` -/
def FindCoordinatorRequest_with_KeyType (t : FindCoordinatorRequest) (x : Int8) : FindCoordinatorRequest := { t with KeyType := x }
/-- `FindCoordinatorRequest.KeyType` -/
def FindCoordinatorRequest.gateKeyType : Gate :=
  { M := FindCoordinatorRequest.type, L := FindCoordinatorRequest.layout, field := "KeyType", α := Int8, present := fun v => v ≥ 1,
    get := fun t => FindCoordinatorRequest.KeyType t, set := fun t x => FindCoordinatorRequest_with_KeyType t x }
theorem FindCoordinatorRequest.gateKeyType_holds : FindCoordinatorRequest.gateKeyType.Holds where
  get_set _ _ := rfl
  encode v h t x := by
    change FindCoordinatorRequest.encode v (FindCoordinatorRequest_with_KeyType t x) = FindCoordinatorRequest.encode v t
    change ¬(v ≥ 1) at h
    simp only [FindCoordinatorRequest.encode, FindCoordinatorRequest_with_KeyType, onlyIf_neg h]
  size v h t x := by
    change FindCoordinatorRequest.size v (FindCoordinatorRequest_with_KeyType t x) = FindCoordinatorRequest.size v t
    change ¬(v ≥ 1) at h
    simp only [FindCoordinatorRequest.size, FindCoordinatorRequest_with_KeyType, onlyIf_neg h]
  decode v h := by
    change ¬(v ≥ 1) at h
    refine (?_ : Keeps (fun t : FindCoordinatorRequest => t.KeyType) (FindCoordinatorRequest.decode v))
    unfold FindCoordinatorRequest.decode
    repeat' first
      | exact Keeps.absent h
      | apply Keeps.andThen
      | exact Keeps.field fun _ _ => rfl
      | exact Keeps.fieldStructs fun _ _ => rfl
      | apply Keeps.onlyIf
  carried v h t t0 t1 := by
    change (FindCoordinatorRequest.seen v t t0).KeyType = (FindCoordinatorRequest.seen v t t1).KeyType
    change v ≥ 1 at h
    simp only [FindCoordinatorRequest.seen, if_pos h]

/-- `t.ThrottleTimeMs = x` -/
def FindCoordinatorResponse_with_ThrottleTimeMs (t : FindCoordinatorResponse) (x : Int32) : FindCoordinatorResponse := { t with ThrottleTimeMs := x }
/-- `FindCoordinatorResponse.ThrottleTimeMs` -/
def FindCoordinatorResponse.gateThrottleTimeMs : Gate :=
  { M := FindCoordinatorResponse.type, L := FindCoordinatorResponse.layout, field := "ThrottleTimeMs", α := Int32, present := fun v => v ≥ 1,
    get := fun t => FindCoordinatorResponse.ThrottleTimeMs t, set := fun t x => FindCoordinatorResponse_with_ThrottleTimeMs t x }
theorem FindCoordinatorResponse.gateThrottleTimeMs_holds : FindCoordinatorResponse.gateThrottleTimeMs.Holds where
  get_set _ _ := rfl
  encode v h t x := by
    change FindCoordinatorResponse.encode v (FindCoordinatorResponse_with_ThrottleTimeMs t x) = FindCoordinatorResponse.encode v t
    change ¬(v ≥ 1) at h
    simp only [FindCoordinatorResponse.encode, FindCoordinatorResponse_with_ThrottleTimeMs, onlyIf_neg h]
  size v h t x := by
    change FindCoordinatorResponse.size v (FindCoordinatorResponse_with_ThrottleTimeMs t x) = FindCoordinatorResponse.size v t
    change ¬(v ≥ 1) at h
    simp only [FindCoordinatorResponse.size, FindCoordinatorResponse_with_ThrottleTimeMs, onlyIf_neg h]
  decode v h := by
    change ¬(v ≥ 1) at h
    refine (?_ : Keeps (fun t : FindCoordinatorResponse => t.ThrottleTimeMs) (FindCoordinatorResponse.decode v))
    unfold FindCoordinatorResponse.decode
    repeat' first
      | exact Keeps.absent h
      | apply Keeps.andThen
      | exact Keeps.field fun _ _ => rfl
      | exact Keeps.fieldStructs fun _ _ => rfl
      | apply Keeps.onlyIf
  carried v h t t0 t1 := by
    change (FindCoordinatorResponse.seen v t t0).ThrottleTimeMs = (FindCoordinatorResponse.seen v t t1).ThrottleTimeMs
    change v ≥ 1 at h
    simp only [FindCoordinatorResponse.seen, if_pos h]

/-- `t.ErrorMessage = x` -/
def FindCoordinatorResponse_with_ErrorMessage (t : FindCoordinatorResponse) (x : GoString) : FindCoordinatorResponse := { t with ErrorMessage := x }
/-- `FindCoordinatorResponse.ErrorMessage` -/
def FindCoordinatorResponse.gateErrorMessage : Gate :=
  { M := FindCoordinatorResponse.type, L := FindCoordinatorResponse.layout, field := "ErrorMessage", α := GoString, present := fun v => v ≥ 1,
    get := fun t => FindCoordinatorResponse.ErrorMessage t, set := fun t x => FindCoordinatorResponse_with_ErrorMessage t x }
theorem FindCoordinatorResponse.gateErrorMessage_holds : FindCoordinatorResponse.gateErrorMessage.Holds where
  get_set _ _ := rfl
  encode v h t x := by
    change FindCoordinatorResponse.encode v (FindCoordinatorResponse_with_ErrorMessage t x) = FindCoordinatorResponse.encode v t
    change ¬(v ≥ 1) at h
    simp only [FindCoordinatorResponse.encode, FindCoordinatorResponse_with_ErrorMessage, onlyIf_neg h]
  size v h t x := by
    change FindCoordinatorResponse.size v (FindCoordinatorResponse_with_ErrorMessage t x) = FindCoordinatorResponse.size v t
    change ¬(v ≥ 1) at h
    simp only [FindCoordinatorResponse.size, FindCoordinatorResponse_with_ErrorMessage, onlyIf_neg h]
  decode v h := by
    change ¬(v ≥ 1) at h
    refine (?_ : Keeps (fun t : FindCoordinatorResponse => t.ErrorMessage) (FindCoordinatorResponse.decode v))
    unfold FindCoordinatorResponse.decode
    repeat' first
      | exact Keeps.absent h
      | apply Keeps.andThen
      | exact Keeps.field fun _ _ => rfl
      | exact Keeps.fieldStructs fun _ _ => rfl
      | apply Keeps.onlyIf
  carried v h t t0 t1 := by
    change (FindCoordinatorResponse.seen v t t0).ErrorMessage = (FindCoordinatorResponse.seen v t t1).ErrorMessage
    change v ≥ 1 at h
    simp only [FindCoordinatorResponse.seen, if_pos h]

/-- The version-dependent fields of the FindCoordinator messages. -/
def gatesFindCoordinator : List Gate :=
  [FindCoordinatorRequest.gateKeyType,
   FindCoordinatorResponse.gateThrottleTimeMs,
   FindCoordinatorResponse.gateErrorMessage]

theorem gatesFindCoordinator_hold : ∀ g ∈ gatesFindCoordinator, g.Holds := by
  unfold gatesFindCoordinator
  simp only [List.forall_mem_cons]
  exact ⟨FindCoordinatorRequest.gateKeyType_holds,
    FindCoordinatorResponse.gateThrottleTimeMs_holds,
    FindCoordinatorResponse.gateErrorMessage_holds,
    fun _ h => absurd h (by simp)⟩

end Kafka.Msg
