import Verif.Message.Gate
import Verif.Gen.Spec.OffsetCommit
/-!
Generated by tools/gen_messages.py: the version-dependent fields of the OffsetCommit messages.
-/
set_option linter.unusedSimpArgs false
namespace Kafka.Msg

/-- `t.GenerationId = x` -/
def OffsetCommitRequest_with_GenerationId (t : OffsetCommitRequest) (x : Int32) : OffsetCommitRequest := { t with GenerationId := x }
/-- `OffsetCommitRequest.GenerationId` -/
def OffsetCommitRequest.gateGenerationId : Gate :=
  { M := OffsetCommitRequest.type, L := OffsetCommitRequest.layout, field := "GenerationId", α := Int32, present := fun v => v ≥ 1,
    get := fun t => OffsetCommitRequest.GenerationId t, set := fun t x => OffsetCommitRequest_with_GenerationId t x }
theorem OffsetCommitRequest.gateGenerationId_holds : OffsetCommitRequest.gateGenerationId.Holds where
  get_set _ _ := rfl
  encode v h t x := by
    change OffsetCommitRequest.encode v (OffsetCommitRequest_with_GenerationId t x) = OffsetCommitRequest.encode v t
    change ¬(v ≥ 1) at h
    simp only [OffsetCommitRequest.encode, OffsetCommitRequest_with_GenerationId, onlyIf_neg h]
  size v h t x := by
    change OffsetCommitRequest.size v (OffsetCommitRequest_with_GenerationId t x) = OffsetCommitRequest.size v t
    change ¬(v ≥ 1) at h
    simp only [OffsetCommitRequest.size, OffsetCommitRequest_with_GenerationId, onlyIf_neg h]
  decode v h := by
    change ¬(v ≥ 1) at h
    refine (?_ : Keeps (fun t : OffsetCommitRequest => t.GenerationId) (OffsetCommitRequest.decode v))
    unfold OffsetCommitRequest.decode
    repeat' first
      | exact Keeps.absent h
      | apply Keeps.andThen
      | exact Keeps.field fun _ _ => rfl
      | exact Keeps.fieldStructs fun _ _ => rfl
      | apply Keeps.onlyIf
  carried v h t t0 t1 := by
    change (OffsetCommitRequest.seen v t t0).GenerationId = (OffsetCommitRequest.seen v t t1).GenerationId
    change v ≥ 1 at h
    simp only [OffsetCommitRequest.seen, if_pos h]

/-- `t.MemberId = x` -/
def OffsetCommitRequest_with_MemberId (t : OffsetCommitRequest) (x : GoString) : OffsetCommitRequest := { t with MemberId := x }
/-- `OffsetCommitRequest.MemberId` -/
def OffsetCommitRequest.gateMemberId : Gate :=
  { M := OffsetCommitRequest.type, L := OffsetCommitRequest.layout, field := "MemberId", α := GoString, present := fun v => v ≥ 1,
    get := fun t => OffsetCommitRequest.MemberId t, set := fun t x => OffsetCommitRequest_with_MemberId t x }
theorem OffsetCommitRequest.gateMemberId_holds : OffsetCommitRequest.gateMemberId.Holds where
  get_set _ _ := rfl
  encode v h t x := by
    change OffsetCommitRequest.encode v (OffsetCommitRequest_with_MemberId t x) = OffsetCommitRequest.encode v t
    change ¬(v ≥ 1) at h
    simp only [OffsetCommitRequest.encode, OffsetCommitRequest_with_MemberId, onlyIf_neg h]
  size v h t x := by
    change OffsetCommitRequest.size v (OffsetCommitRequest_with_MemberId t x) = OffsetCommitRequest.size v t
    change ¬(v ≥ 1) at h
    simp only [OffsetCommitRequest.size, OffsetCommitRequest_with_MemberId, onlyIf_neg h]
  decode v h := by
    change ¬(v ≥ 1) at h
    refine (?_ : Keeps (fun t : OffsetCommitRequest => t.MemberId) (OffsetCommitRequest.decode v))
    unfold OffsetCommitRequest.decode
    repeat' first
      | exact Keeps.absent h
      | apply Keeps.andThen
      | exact Keeps.field fun _ _ => rfl
      | exact Keeps.fieldStructs fun _ _ => rfl
      | apply Keeps.onlyIf
  carried v h t t0 t1 := by
    change (OffsetCommitRequest.seen v t t0).MemberId = (OffsetCommitRequest.seen v t t1).MemberId
    change v ≥ 1 at h
    simp only [OffsetCommitRequest.seen, if_pos h]

/-- `t.GroupInstanceId = x` -/
def OffsetCommitRequest_with_GroupInstanceId (t : OffsetCommitRequest) (x : GoString) : OffsetCommitRequest := { t with GroupInstanceId := x }
/-- `OffsetCommitRequest.GroupInstanceId` -/
def OffsetCommitRequest.gateGroupInstanceId : Gate :=
  { M := OffsetCommitRequest.type, L := OffsetCommitRequest.layout, field := "GroupInstanceId", α := GoString, present := fun v => v ≥ 7,
    get := fun t => OffsetCommitRequest.GroupInstanceId t, set := fun t x => OffsetCommitRequest_with_GroupInstanceId t x }
theorem OffsetCommitRequest.gateGroupInstanceId_holds : OffsetCommitRequest.gateGroupInstanceId.Holds where
  get_set _ _ := rfl
  encode v h t x := by
    change OffsetCommitRequest.encode v (OffsetCommitRequest_with_GroupInstanceId t x) = OffsetCommitRequest.encode v t
    change ¬(v ≥ 7) at h
    simp only [OffsetCommitRequest.encode, OffsetCommitRequest_with_GroupInstanceId, onlyIf_neg h]
  size v h t x := by
    change OffsetCommitRequest.size v (OffsetCommitRequest_with_GroupInstanceId t x) = OffsetCommitRequest.size v t
    change ¬(v ≥ 7) at h
    simp only [OffsetCommitRequest.size, OffsetCommitRequest_with_GroupInstanceId, onlyIf_neg h]
  decode v h := by
    change ¬(v ≥ 7) at h
    refine (?_ : Keeps (fun t : OffsetCommitRequest => t.GroupInstanceId) (OffsetCommitRequest.decode v))
    unfold OffsetCommitRequest.decode
    repeat' first
      | exact Keeps.absent h
      | apply Keeps.andThen
      | exact Keeps.field fun _ _ => rfl
      | exact Keeps.fieldStructs fun _ _ => rfl
      | apply Keeps.onlyIf
  carried v h t t0 t1 := by
    change (OffsetCommitRequest.seen v t t0).GroupInstanceId = (OffsetCommitRequest.seen v t t1).GroupInstanceId
    change v ≥ 7 at h
    simp only [OffsetCommitRequest.seen, if_pos h]

/-- `t.RetentionTimeMs = x` -/
def OffsetCommitRequest_with_RetentionTimeMs (t : OffsetCommitRequest) (x : Int64) : OffsetCommitRequest := { t with RetentionTimeMs := x }
/-- `OffsetCommitRequest.RetentionTimeMs` -/
def OffsetCommitRequest.gateRetentionTimeMs : Gate :=
  { M := OffsetCommitRequest.type, L := OffsetCommitRequest.layout, field := "RetentionTimeMs", α := Int64, present := fun v => v ≥ 2 ∧ v ≤ 4,
    get := fun t => OffsetCommitRequest.RetentionTimeMs t, set := fun t x => OffsetCommitRequest_with_RetentionTimeMs t x }
theorem OffsetCommitRequest.gateRetentionTimeMs_holds : OffsetCommitRequest.gateRetentionTimeMs.Holds where
  get_set _ _ := rfl
  encode v h t x := by
    change OffsetCommitRequest.encode v (OffsetCommitRequest_with_RetentionTimeMs t x) = OffsetCommitRequest.encode v t
    change ¬(v ≥ 2 ∧ v ≤ 4) at h
    simp only [OffsetCommitRequest.encode, OffsetCommitRequest_with_RetentionTimeMs, onlyIf_neg h]
  size v h t x := by
    change OffsetCommitRequest.size v (OffsetCommitRequest_with_RetentionTimeMs t x) = OffsetCommitRequest.size v t
    change ¬(v ≥ 2 ∧ v ≤ 4) at h
    simp only [OffsetCommitRequest.size, OffsetCommitRequest_with_RetentionTimeMs, onlyIf_neg h]
  decode v h := by
    change ¬(v ≥ 2 ∧ v ≤ 4) at h
    refine (?_ : Keeps (fun t : OffsetCommitRequest => t.RetentionTimeMs) (OffsetCommitRequest.decode v))
    unfold OffsetCommitRequest.decode
    repeat' first
      | exact Keeps.absent h
      | apply Keeps.andThen
      | exact Keeps.field fun _ _ => rfl
      | exact Keeps.fieldStructs fun _ _ => rfl
      | apply Keeps.onlyIf
  carried v h t t0 t1 := by
    change (OffsetCommitRequest.seen v t t0).RetentionTimeMs = (OffsetCommitRequest.seen v t t1).RetentionTimeMs
    change v ≥ 2 ∧ v ≤ 4 at h
    simp only [OffsetCommitRequest.seen, if_pos h]

/-- `t.CommittedLeaderEpoch = x` -/
def OffsetCommitRequestPartition8_with_CommittedLeaderEpoch (t : OffsetCommitRequestPartition8) (x : Int32) : OffsetCommitRequestPartition8 := { t with CommittedLeaderEpoch := x }
/-- `OffsetCommitRequestPartition8.CommittedLeaderEpoch` -/
def OffsetCommitRequestPartition8.gateCommittedLeaderEpoch : Gate :=
  { M := OffsetCommitRequestPartition8.type, L := OffsetCommitRequestPartition8.layout, field := "CommittedLeaderEpoch", α := Int32, present := fun v => v ≥ 6,
    get := fun t => OffsetCommitRequestPartition8.CommittedLeaderEpoch t, set := fun t x => OffsetCommitRequestPartition8_with_CommittedLeaderEpoch t x }
theorem OffsetCommitRequestPartition8.gateCommittedLeaderEpoch_holds : OffsetCommitRequestPartition8.gateCommittedLeaderEpoch.Holds where
  get_set _ _ := rfl
  encode v h t x := by
    change OffsetCommitRequestPartition8.encode v (OffsetCommitRequestPartition8_with_CommittedLeaderEpoch t x) = OffsetCommitRequestPartition8.encode v t
    change ¬(v ≥ 6) at h
    simp only [OffsetCommitRequestPartition8.encode, OffsetCommitRequestPartition8_with_CommittedLeaderEpoch, onlyIf_neg h]
  size v h t x := by
    change OffsetCommitRequestPartition8.size v (OffsetCommitRequestPartition8_with_CommittedLeaderEpoch t x) = OffsetCommitRequestPartition8.size v t
    change ¬(v ≥ 6) at h
    simp only [OffsetCommitRequestPartition8.size, OffsetCommitRequestPartition8_with_CommittedLeaderEpoch, onlyIf_neg h]
  decode v h := by
    change ¬(v ≥ 6) at h
    refine (?_ : Keeps (fun t : OffsetCommitRequestPartition8 => t.CommittedLeaderEpoch) (OffsetCommitRequestPartition8.decode v))
    unfold OffsetCommitRequestPartition8.decode
    repeat' first
      | exact Keeps.absent h
      | apply Keeps.andThen
      | exact Keeps.field fun _ _ => rfl
      | exact Keeps.fieldStructs fun _ _ => rfl
      | apply Keeps.onlyIf
  carried v h t t0 t1 := by
    change (OffsetCommitRequestPartition8.seen v t t0).CommittedLeaderEpoch = (OffsetCommitRequestPartition8.seen v t t1).CommittedLeaderEpoch
    change v ≥ 6 at h
    simp only [OffsetCommitRequestPartition8.seen, if_pos h]

/-- `t.ThrottleTimeMs = x` -/
def OffsetCommitResponse_with_ThrottleTimeMs (t : OffsetCommitResponse) (x : Int32) : OffsetCommitResponse := { t with ThrottleTimeMs := x }
/-- `OffsetCommitResponse.ThrottleTimeMs` -/
def OffsetCommitResponse.gateThrottleTimeMs : Gate :=
  { M := OffsetCommitResponse.type, L := OffsetCommitResponse.layout, field := "ThrottleTimeMs", α := Int32, present := fun v => v ≥ 3,
    get := fun t => OffsetCommitResponse.ThrottleTimeMs t, set := fun t x => OffsetCommitResponse_with_ThrottleTimeMs t x }
theorem OffsetCommitResponse.gateThrottleTimeMs_holds : OffsetCommitResponse.gateThrottleTimeMs.Holds where
  get_set _ _ := rfl
  encode v h t x := by
    change OffsetCommitResponse.encode v (OffsetCommitResponse_with_ThrottleTimeMs t x) = OffsetCommitResponse.encode v t
    change ¬(v ≥ 3) at h
    simp only [OffsetCommitResponse.encode, OffsetCommitResponse_with_ThrottleTimeMs, onlyIf_neg h]
  size v h t x := by
    change OffsetCommitResponse.size v (OffsetCommitResponse_with_ThrottleTimeMs t x) = OffsetCommitResponse.size v t
    change ¬(v ≥ 3) at h
    simp only [OffsetCommitResponse.size, OffsetCommitResponse_with_ThrottleTimeMs, onlyIf_neg h]
  decode v h := by
    change ¬(v ≥ 3) at h
    refine (?_ : Keeps (fun t : OffsetCommitResponse => t.ThrottleTimeMs) (OffsetCommitResponse.decode v))
    unfold OffsetCommitResponse.decode
    repeat' first
      | exact Keeps.absent h
      | apply Keeps.andThen
      | exact Keeps.field fun _ _ => rfl
      | exact Keeps.fieldStructs fun _ _ => rfl
      | apply Keeps.onlyIf
  carried v h t t0 t1 := by
    change (OffsetCommitResponse.seen v t t0).ThrottleTimeMs = (OffsetCommitResponse.seen v t t1).ThrottleTimeMs
    change v ≥ 3 at h
    simp only [OffsetCommitResponse.seen, if_pos h]

/-- The version-dependent fields of the OffsetCommit messages. -/
def gatesOffsetCommit : List Gate :=
  [OffsetCommitRequest.gateGenerationId,
   OffsetCommitRequest.gateMemberId,
   OffsetCommitRequest.gateGroupInstanceId,
   OffsetCommitRequest.gateRetentionTimeMs,
   OffsetCommitRequestPartition8.gateCommittedLeaderEpoch,
   OffsetCommitResponse.gateThrottleTimeMs]

theorem gatesOffsetCommit_hold : ∀ g ∈ gatesOffsetCommit, g.Holds := by
  unfold gatesOffsetCommit
  simp only [List.forall_mem_cons]
  exact ⟨OffsetCommitRequest.gateGenerationId_holds,
    OffsetCommitRequest.gateMemberId_holds,
    OffsetCommitRequest.gateGroupInstanceId_holds,
    OffsetCommitRequest.gateRetentionTimeMs_holds,
    OffsetCommitRequestPartition8.gateCommittedLeaderEpoch_holds,
    OffsetCommitResponse.gateThrottleTimeMs_holds,
    fun _ h => absurd h (by simp)⟩

end Kafka.Msg
