import Verif.Message.Gate
import Verif.Gen.Spec.ElectLeaders
/-!
Generated by tools/gen_messages.py: the version-dependent fields of the ElectLeaders messages.
-/
set_option linter.unusedSimpArgs false
namespace Kafka.Msg

/-- `t.ElectionType = x` -/
def ElectLeadersRequest_with_ElectionType (t : ElectLeadersRequest) (x : Int8) : ElectLeadersRequest := { t with ElectionType := x }
/-- `ElectLeadersRequest.ElectionType` -/
def ElectLeadersRequest.gateElectionType : Gate :=
  { M := ElectLeadersRequest.type, L := ElectLeadersRequest.layout, field := "ElectionType", α := Int8, present := fun v => v ≥ 1,
    get := fun t => ElectLeadersRequest.ElectionType t, set := fun t x => ElectLeadersRequest_with_ElectionType t x }
theorem ElectLeadersRequest.gateElectionType_holds : ElectLeadersRequest.gateElectionType.Holds where
  get_set _ _ := rfl
  encode v h t x := by
    change ElectLeadersRequest.encode v (ElectLeadersRequest_with_ElectionType t x) = ElectLeadersRequest.encode v t
    change ¬(v ≥ 1) at h
    simp only [ElectLeadersRequest.encode, ElectLeadersRequest_with_ElectionType, onlyIf_neg h]
  size v h t x := by
    change ElectLeadersRequest.size v (ElectLeadersRequest_with_ElectionType t x) = ElectLeadersRequest.size v t
    change ¬(v ≥ 1) at h
    simp only [ElectLeadersRequest.size, ElectLeadersRequest_with_ElectionType, onlyIf_neg h]
  decode v h := by
    change ¬(v ≥ 1) at h
    refine (?_ : Keeps (fun t : ElectLeadersRequest => t.ElectionType) (ElectLeadersRequest.decode v))
    unfold ElectLeadersRequest.decode
    repeat' first
      | exact Keeps.absent h
      | apply Keeps.andThen
      | exact Keeps.field fun _ _ => rfl
      | exact Keeps.fieldStructs fun _ _ => rfl
      | apply Keeps.onlyIf
  carried v h t t0 t1 := by
    change (ElectLeadersRequest.seen v t t0).ElectionType = (ElectLeadersRequest.seen v t t1).ElectionType
    change v ≥ 1 at h
    simp only [ElectLeadersRequest.seen, if_pos h]

/-- `t.ErrorCode = x` -/
def ElectLeadersResponse_with_ErrorCode (t : ElectLeadersResponse) (x : Int16) : ElectLeadersResponse := { t with ErrorCode := x }
/-- `ElectLeadersResponse.ErrorCode` -/
def ElectLeadersResponse.gateErrorCode : Gate :=
  { M := ElectLeadersResponse.type, L := ElectLeadersResponse.layout, field := "ErrorCode", α := Int16, present := fun v => v ≥ 1,
    get := fun t => ElectLeadersResponse.ErrorCode t, set := fun t x => ElectLeadersResponse_with_ErrorCode t x }
theorem ElectLeadersResponse.gateErrorCode_holds : ElectLeadersResponse.gateErrorCode.Holds where
  get_set _ _ := rfl
  encode v h t x := by
    change ElectLeadersResponse.encode v (ElectLeadersResponse_with_ErrorCode t x) = ElectLeadersResponse.encode v t
    change ¬(v ≥ 1) at h
    simp only [ElectLeadersResponse.encode, ElectLeadersResponse_with_ErrorCode, onlyIf_neg h]
  size v h t x := by
    change ElectLeadersResponse.size v (ElectLeadersResponse_with_ErrorCode t x) = ElectLeadersResponse.size v t
    change ¬(v ≥ 1) at h
    simp only [ElectLeadersResponse.size, ElectLeadersResponse_with_ErrorCode, onlyIf_neg h]
  decode v h := by
    change ¬(v ≥ 1) at h
    refine (?_ : Keeps (fun t : ElectLeadersResponse => t.ErrorCode) (ElectLeadersResponse.decode v))
    unfold ElectLeadersResponse.decode
    repeat' first
      | exact Keeps.absent h
      | apply Keeps.andThen
      | exact Keeps.field fun _ _ => rfl
      | exact Keeps.fieldStructs fun _ _ => rfl
      | apply Keeps.onlyIf
  carried v h t t0 t1 := by
    change (ElectLeadersResponse.seen v t t0).ErrorCode = (ElectLeadersResponse.seen v t t1).ErrorCode
    change v ≥ 1 at h
    simp only [ElectLeadersResponse.seen, if_pos h]

/-- The version-dependent fields of the ElectLeaders messages. -/
def gatesElectLeaders : List Gate :=
  [ElectLeadersRequest.gateElectionType,
   ElectLeadersResponse.gateErrorCode]

theorem gatesElectLeaders_hold : ∀ g ∈ gatesElectLeaders, g.Holds := by
  unfold gatesElectLeaders
  simp only [List.forall_mem_cons]
  exact ⟨ElectLeadersRequest.gateElectionType_holds,
    ElectLeadersResponse.gateErrorCode_holds,
    fun _ h => absurd h (by simp)⟩

end Kafka.Msg
