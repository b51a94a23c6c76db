import Verif.Message.Gate
import Verif.Gen.Spec.OffsetFetch
/-!
Generated by tools/gen_messages.py: the version-dependent fields of the OffsetFetch messages.
-/
set_option linter.unusedSimpArgs false
namespace Kafka.Msg

/-- `t.ThrottleTimeMs = x` -/
def OffsetFetchResponse_with_ThrottleTimeMs (t : OffsetFetchResponse) (x : Int32) : OffsetFetchResponse := { t with ThrottleTimeMs := x }
/-- `OffsetFetchResponse.ThrottleTimeMs` -/
def OffsetFetchResponse.gateThrottleTimeMs : Gate :=
  { M := OffsetFetchResponse.type, L := OffsetFetchResponse.layout, field := "ThrottleTimeMs", α := Int32, present := fun v => v ≥ 3,
    get := fun t => OffsetFetchResponse.ThrottleTimeMs t, set := fun t x => OffsetFetchResponse_with_ThrottleTimeMs t x }
theorem OffsetFetchResponse.gateThrottleTimeMs_holds : OffsetFetchResponse.gateThrottleTimeMs.Holds where
  get_set _ _ := rfl
  encode v h t x := by
    change OffsetFetchResponse.encode v (OffsetFetchResponse_with_ThrottleTimeMs t x) = OffsetFetchResponse.encode v t
    change ¬(v ≥ 3) at h
    simp only [OffsetFetchResponse.encode, OffsetFetchResponse_with_ThrottleTimeMs, onlyIf_neg h]
  size v h t x := by
    change OffsetFetchResponse.size v (OffsetFetchResponse_with_ThrottleTimeMs t x) = OffsetFetchResponse.size v t
    change ¬(v ≥ 3) at h
    simp only [OffsetFetchResponse.size, OffsetFetchResponse_with_ThrottleTimeMs, onlyIf_neg h]
  decode v h := by
    change ¬(v ≥ 3) at h
    refine (?_ : Keeps (fun t : OffsetFetchResponse => t.ThrottleTimeMs) (OffsetFetchResponse.decode v))
    unfold OffsetFetchResponse.decode
    repeat' first
      | exact Keeps.absent h
      | apply Keeps.andThen
      | exact Keeps.field fun _ _ => rfl
      | exact Keeps.fieldStructs fun _ _ => rfl
      | apply Keeps.onlyIf
  carried v h t t0 t1 := by
    change (OffsetFetchResponse.seen v t t0).ThrottleTimeMs = (OffsetFetchResponse.seen v t t1).ThrottleTimeMs
    change v ≥ 3 at h
    simp only [OffsetFetchResponse.seen, if_pos h]

/-- `t.ErrorCode = x` -/
def OffsetFetchResponse_with_ErrorCode (t : OffsetFetchResponse) (x : Int16) : OffsetFetchResponse := { t with ErrorCode := x }
/-- `OffsetFetchResponse.ErrorCode` -/
def OffsetFetchResponse.gateErrorCode : Gate :=
  { M := OffsetFetchResponse.type, L := OffsetFetchResponse.layout, field := "ErrorCode", α := Int16, present := fun v => v ≥ 2,
    get := fun t => OffsetFetchResponse.ErrorCode t, set := fun t x => OffsetFetchResponse_with_ErrorCode t x }
theorem OffsetFetchResponse.gateErrorCode_holds : OffsetFetchResponse.gateErrorCode.Holds where
  get_set _ _ := rfl
  encode v h t x := by
    change OffsetFetchResponse.encode v (OffsetFetchResponse_with_ErrorCode t x) = OffsetFetchResponse.encode v t
    change ¬(v ≥ 2) at h
    simp only [OffsetFetchResponse.encode, OffsetFetchResponse_with_ErrorCode, onlyIf_neg h]
  size v h t x := by
    change OffsetFetchResponse.size v (OffsetFetchResponse_with_ErrorCode t x) = OffsetFetchResponse.size v t
    change ¬(v ≥ 2) at h
    simp only [OffsetFetchResponse.size, OffsetFetchResponse_with_ErrorCode, onlyIf_neg h]
  decode v h := by
    change ¬(v ≥ 2) at h
    refine (?_ : Keeps (fun t : OffsetFetchResponse => t.ErrorCode) (OffsetFetchResponse.decode v))
    unfold OffsetFetchResponse.decode
    repeat' first
      | exact Keeps.absent h
      | apply Keeps.andThen
      | exact Keeps.field fun _ _ => rfl
      | exact Keeps.fieldStructs fun _ _ => rfl
      | apply Keeps.onlyIf
  carried v h t t0 t1 := by
    change (OffsetFetchResponse.seen v t t0).ErrorCode = (OffsetFetchResponse.seen v t t1).ErrorCode
    change v ≥ 2 at h
    simp only [OffsetFetchResponse.seen, if_pos h]

/-- `t.CommittedLeaderEpoch = x` -/
def OffsetFetchResponsePartition9_with_CommittedLeaderEpoch (t : OffsetFetchResponsePartition9) (x : Int32) : OffsetFetchResponsePartition9 := { t with CommittedLeaderEpoch := x }
/-- `OffsetFetchResponsePartition9.CommittedLeaderEpoch` -/
def OffsetFetchResponsePartition9.gateCommittedLeaderEpoch : Gate :=
  { M := OffsetFetchResponsePartition9.type, L := OffsetFetchResponsePartition9.layout, field := "CommittedLeaderEpoch", α := Int32, present := fun v => v ≥ 5,
    get := fun t => OffsetFetchResponsePartition9.CommittedLeaderEpoch t, set := fun t x => OffsetFetchResponsePartition9_with_CommittedLeaderEpoch t x }
theorem OffsetFetchResponsePartition9.gateCommittedLeaderEpoch_holds : OffsetFetchResponsePartition9.gateCommittedLeaderEpoch.Holds where
  get_set _ _ := rfl
  encode v h t x := by
    change OffsetFetchResponsePartition9.encode v (OffsetFetchResponsePartition9_with_CommittedLeaderEpoch t x) = OffsetFetchResponsePartition9.encode v t
    change ¬(v ≥ 5) at h
    simp only [OffsetFetchResponsePartition9.encode, OffsetFetchResponsePartition9_with_CommittedLeaderEpoch, onlyIf_neg h]
  size v h t x := by
    change OffsetFetchResponsePartition9.size v (OffsetFetchResponsePartition9_with_CommittedLeaderEpoch t x) = OffsetFetchResponsePartition9.size v t
    change ¬(v ≥ 5) at h
    simp only [OffsetFetchResponsePartition9.size, OffsetFetchResponsePartition9_with_CommittedLeaderEpoch, onlyIf_neg h]
  decode v h := by
    change ¬(v ≥ 5) at h
    refine (?_ : Keeps (fun t : OffsetFetchResponsePartition9 => t.CommittedLeaderEpoch) (OffsetFetchResponsePartition9.decode v))
    unfold OffsetFetchResponsePartition9.decode
    repeat' first
      | exact Keeps.absent h
      | apply Keeps.andThen
      | exact Keeps.field fun _ _ => rfl
      | exact Keeps.fieldStructs fun _ _ => rfl
      | apply Keeps.onlyIf
  carried v h t t0 t1 := by
    change (OffsetFetchResponsePartition9.seen v t t0).CommittedLeaderEpoch = (OffsetFetchResponsePartition9.seen v t t1).CommittedLeaderEpoch
    change v ≥ 5 at h
    simp only [OffsetFetchResponsePartition9.seen, if_pos h]

/-- The version-dependent fields of the OffsetFetch messages. -/
def gatesOffsetFetch : List Gate :=
  [OffsetFetchResponse.gateThrottleTimeMs,
   OffsetFetchResponse.gateErrorCode,
   OffsetFetchResponsePartition9.gateCommittedLeaderEpoch]

theorem gatesOffsetFetch_hold : ∀ g ∈ gatesOffsetFetch, g.Holds := by
  unfold gatesOffsetFetch
  simp only [List.forall_mem_cons]
  exact ⟨OffsetFetchResponse.gateThrottleTimeMs_holds,
    OffsetFetchResponse.gateErrorCode_holds,
    OffsetFetchResponsePartition9.gateCommittedLeaderEpoch_holds,
    fun _ h => absurd h (by simp)⟩

end Kafka.Msg
