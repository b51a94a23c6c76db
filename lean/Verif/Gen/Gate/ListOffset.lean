import Verif.Message.Gate
import Verif.Gen.Spec.ListOffset
/-!
Generated by tools/gen_messages.py: the version-dependent fields of the ListOffset messages.
-/
set_option linter.unusedSimpArgs false
namespace Kafka.Msg

/-- `t.IsolationLevel = x` -/
def ListOffsetRequest_with_IsolationLevel (t : ListOffsetRequest) (x : Int8) : ListOffsetRequest := { t with IsolationLevel := x }
/-- `ListOffsetRequest.IsolationLevel` -/
def ListOffsetRequest.gateIsolationLevel : Gate :=
  { M := ListOffsetRequest.type, L := ListOffsetRequest.layout, field := "IsolationLevel", α := Int8, present := fun v => v ≥ 2,
    get := fun t => ListOffsetRequest.IsolationLevel t, set := fun t x => ListOffsetRequest_with_IsolationLevel t x }
theorem ListOffsetRequest.gateIsolationLevel_holds : ListOffsetRequest.gateIsolationLevel.Holds where
  get_set _ _ := rfl
  encode v h t x := by
    change ListOffsetRequest.encode v (ListOffsetRequest_with_IsolationLevel t x) = ListOffsetRequest.encode v t
    change ¬(v ≥ 2) at h
    simp only [ListOffsetRequest.encode, ListOffsetRequest_with_IsolationLevel, onlyIf_neg h]
  size v h t x := by
    change ListOffsetRequest.size v (ListOffsetRequest_with_IsolationLevel t x) = ListOffsetRequest.size v t
    change ¬(v ≥ 2) at h
    simp only [ListOffsetRequest.size, ListOffsetRequest_with_IsolationLevel, onlyIf_neg h]
  decode v h := by
    change ¬(v ≥ 2) at h
    refine (?_ : Keeps (fun t : ListOffsetRequest => t.IsolationLevel) (ListOffsetRequest.decode v))
    unfold ListOffsetRequest.decode
    repeat' first
      | exact Keeps.absent h
      | apply Keeps.andThen
      | exact Keeps.field fun _ _ => rfl
      | exact Keeps.fieldStructs fun _ _ => rfl
      | apply Keeps.onlyIf
  carried v h t t0 t1 := by
    change (ListOffsetRequest.seen v t t0).IsolationLevel = (ListOffsetRequest.seen v t t1).IsolationLevel
    change v ≥ 2 at h
    simp only [ListOffsetRequest.seen, if_pos h]

/-- `t.CurrentLeaderEpoch = x` -/
def ListOffsetPartition2_with_CurrentLeaderEpoch (t : ListOffsetPartition2) (x : Int32) : ListOffsetPartition2 := { t with CurrentLeaderEpoch := x }
/-- `ListOffsetPartition2.CurrentLeaderEpoch` -/
def ListOffsetPartition2.gateCurrentLeaderEpoch : Gate :=
  { M := ListOffsetPartition2.type, L := ListOffsetPartition2.layout, field := "CurrentLeaderEpoch", α := Int32, present := fun v => v ≥ 4,
    get := fun t => ListOffsetPartition2.CurrentLeaderEpoch t, set := fun t x => ListOffsetPartition2_with_CurrentLeaderEpoch t x }
theorem ListOffsetPartition2.gateCurrentLeaderEpoch_holds : ListOffsetPartition2.gateCurrentLeaderEpoch.Holds where
  get_set _ _ := rfl
  encode v h t x := by
    change ListOffsetPartition2.encode v (ListOffsetPartition2_with_CurrentLeaderEpoch t x) = ListOffsetPartition2.encode v t
    change ¬(v ≥ 4) at h
    simp only [ListOffsetPartition2.encode, ListOffsetPartition2_with_CurrentLeaderEpoch, onlyIf_neg h]
  size v h t x := by
    change ListOffsetPartition2.size v (ListOffsetPartition2_with_CurrentLeaderEpoch t x) = ListOffsetPartition2.size v t
    change ¬(v ≥ 4) at h
    simp only [ListOffsetPartition2.size, ListOffsetPartition2_with_CurrentLeaderEpoch, onlyIf_neg h]
  decode v h := by
    change ¬(v ≥ 4) at h
    refine (?_ : Keeps (fun t : ListOffsetPartition2 => t.CurrentLeaderEpoch) (ListOffsetPartition2.decode v))
    unfold ListOffsetPartition2.decode
    repeat' first
      | exact Keeps.absent h
      | apply Keeps.andThen
      | exact Keeps.field fun _ _ => rfl
      | exact Keeps.fieldStructs fun _ _ => rfl
      | apply Keeps.onlyIf
  carried v h t t0 t1 := by
    change (ListOffsetPartition2.seen v t t0).CurrentLeaderEpoch = (ListOffsetPartition2.seen v t t1).CurrentLeaderEpoch
    change v ≥ 4 at h
    simp only [ListOffsetPartition2.seen, if_pos h]

/-- `t.MaxNumOffsets = x` -/
def ListOffsetPartition2_with_MaxNumOffsets (t : ListOffsetPartition2) (x : Int32) : ListOffsetPartition2 := { t with MaxNumOffsets := x }
/-- `ListOffsetPartition2.MaxNumOffsets` -/
def ListOffsetPartition2.gateMaxNumOffsets : Gate :=
  { M := ListOffsetPartition2.type, L := ListOffsetPartition2.layout, field := "MaxNumOffsets", α := Int32, present := fun v => v ≥ 0 ∧ v ≤ 0,
    get := fun t => ListOffsetPartition2.MaxNumOffsets t, set := fun t x => ListOffsetPartition2_with_MaxNumOffsets t x }
theorem ListOffsetPartition2.gateMaxNumOffsets_holds : ListOffsetPartition2.gateMaxNumOffsets.Holds where
  get_set _ _ := rfl
  encode v h t x := by
    change ListOffsetPartition2.encode v (ListOffsetPartition2_with_MaxNumOffsets t x) = ListOffsetPartition2.encode v t
    change ¬(v ≥ 0 ∧ v ≤ 0) at h
    simp only [ListOffsetPartition2.encode, ListOffsetPartition2_with_MaxNumOffsets, onlyIf_neg h]
  size v h t x := by
    change ListOffsetPartition2.size v (ListOffsetPartition2_with_MaxNumOffsets t x) = ListOffsetPartition2.size v t
    change ¬(v ≥ 0 ∧ v ≤ 0) at h
    simp only [ListOffsetPartition2.size, ListOffsetPartition2_with_MaxNumOffsets, onlyIf_neg h]
  decode v h := by
    change ¬(v ≥ 0 ∧ v ≤ 0) at h
    refine (?_ : Keeps (fun t : ListOffsetPartition2 => t.MaxNumOffsets) (ListOffsetPartition2.decode v))
    unfold ListOffsetPartition2.decode
    repeat' first
      | exact Keeps.absent h
      | apply Keeps.andThen
      | exact Keeps.field fun _ _ => rfl
      | exact Keeps.fieldStructs fun _ _ => rfl
      | apply Keeps.onlyIf
  carried v h t t0 t1 := by
    change (ListOffsetPartition2.seen v t t0).MaxNumOffsets = (ListOffsetPartition2.seen v t t1).MaxNumOffsets
    change v ≥ 0 ∧ v ≤ 0 at h
    simp only [ListOffsetPartition2.seen, if_pos h]

/-- `t.ThrottleTimeMs = x` -/
def ListOffsetResponse_with_ThrottleTimeMs (t : ListOffsetResponse) (x : Int32) : ListOffsetResponse := { t with ThrottleTimeMs := x }
/-- `ListOffsetResponse.ThrottleTimeMs` -/
def ListOffsetResponse.gateThrottleTimeMs : Gate :=
  { M := ListOffsetResponse.type, L := ListOffsetResponse.layout, field := "ThrottleTimeMs", α := Int32, present := fun v => v ≥ 2,
    get := fun t => ListOffsetResponse.ThrottleTimeMs t, set := fun t x => ListOffsetResponse_with_ThrottleTimeMs t x }
theorem ListOffsetResponse.gateThrottleTimeMs_holds : ListOffsetResponse.gateThrottleTimeMs.Holds where
  get_set _ _ := rfl
  encode v h t x := by
    change ListOffsetResponse.encode v (ListOffsetResponse_with_ThrottleTimeMs t x) = ListOffsetResponse.encode v t
    change ¬(v ≥ 2) at h
    simp only [ListOffsetResponse.encode, ListOffsetResponse_with_ThrottleTimeMs, onlyIf_neg h]
  size v h t x := by
    change ListOffsetResponse.size v (ListOffsetResponse_with_ThrottleTimeMs t x) = ListOffsetResponse.size v t
    change ¬(v ≥ 2) at h
    simp only [ListOffsetResponse.size, ListOffsetResponse_with_ThrottleTimeMs, onlyIf_neg h]
  decode v h := by
    change ¬(v ≥ 2) at h
    refine (?_ : Keeps (fun t : ListOffsetResponse => t.ThrottleTimeMs) (ListOffsetResponse.decode v))
    unfold ListOffsetResponse.decode
    repeat' first
      | exact Keeps.absent h
      | apply Keeps.andThen
      | exact Keeps.field fun _ _ => rfl
      | exact Keeps.fieldStructs fun _ _ => rfl
      | apply Keeps.onlyIf
  carried v h t t0 t1 := by
    change (ListOffsetResponse.seen v t t0).ThrottleTimeMs = (ListOffsetResponse.seen v t t1).ThrottleTimeMs
    change v ≥ 2 at h
    simp only [ListOffsetResponse.seen, if_pos h]

/-- `t.OldStyleOffsets = x` -/
def ListOffsetPartitionResponse2_with_OldStyleOffsets (t : ListOffsetPartitionResponse2) (x : Slice Int64) : ListOffsetPartitionResponse2 := { t with OldStyleOffsets := x }
/-- `ListOffsetPartitionResponse2.OldStyleOffsets` -/
def ListOffsetPartitionResponse2.gateOldStyleOffsets : Gate :=
  { M := ListOffsetPartitionResponse2.type, L := ListOffsetPartitionResponse2.layout, field := "OldStyleOffsets", α := Slice Int64, present := fun v => v ≥ 0 ∧ v ≤ 0,
    get := fun t => ListOffsetPartitionResponse2.OldStyleOffsets t, set := fun t x => ListOffsetPartitionResponse2_with_OldStyleOffsets t x }
theorem ListOffsetPartitionResponse2.gateOldStyleOffsets_holds : ListOffsetPartitionResponse2.gateOldStyleOffsets.Holds where
  get_set _ _ := rfl
  encode v h t x := by
    change ListOffsetPartitionResponse2.encode v (ListOffsetPartitionResponse2_with_OldStyleOffsets t x) = ListOffsetPartitionResponse2.encode v t
    change ¬(v ≥ 0 ∧ v ≤ 0) at h
    simp only [ListOffsetPartitionResponse2.encode, ListOffsetPartitionResponse2_with_OldStyleOffsets, onlyIf_neg h]
  size v h t x := by
    change ListOffsetPartitionResponse2.size v (ListOffsetPartitionResponse2_with_OldStyleOffsets t x) = ListOffsetPartitionResponse2.size v t
    change ¬(v ≥ 0 ∧ v ≤ 0) at h
    simp only [ListOffsetPartitionResponse2.size, ListOffsetPartitionResponse2_with_OldStyleOffsets, onlyIf_neg h]
  decode v h := by
    change ¬(v ≥ 0 ∧ v ≤ 0) at h
    refine (?_ : Keeps (fun t : ListOffsetPartitionResponse2 => t.OldStyleOffsets) (ListOffsetPartitionResponse2.decode v))
    unfold ListOffsetPartitionResponse2.decode
    repeat' first
      | exact Keeps.absent h
      | apply Keeps.andThen
      | exact Keeps.field fun _ _ => rfl
      | exact Keeps.fieldStructs fun _ _ => rfl
      | apply Keeps.onlyIf
  carried v h t t0 t1 := by
    change (ListOffsetPartitionResponse2.seen v t t0).OldStyleOffsets = (ListOffsetPartitionResponse2.seen v t t1).OldStyleOffsets
    change v ≥ 0 ∧ v ≤ 0 at h
    simp only [ListOffsetPartitionResponse2.seen, if_pos h]

/-- `t.Timestamp = x` -/
def ListOffsetPartitionResponse2_with_Timestamp (t : ListOffsetPartitionResponse2) (x : Int64) : ListOffsetPartitionResponse2 := { t with Timestamp := x }
/-- `ListOffsetPartitionResponse2.Timestamp` -/
def ListOffsetPartitionResponse2.gateTimestamp : Gate :=
  { M := ListOffsetPartitionResponse2.type, L := ListOffsetPartitionResponse2.layout, field := "Timestamp", α := Int64, present := fun v => v ≥ 1,
    get := fun t => ListOffsetPartitionResponse2.Timestamp t, set := fun t x => ListOffsetPartitionResponse2_with_Timestamp t x }
theorem ListOffsetPartitionResponse2.gateTimestamp_holds : ListOffsetPartitionResponse2.gateTimestamp.Holds where
  get_set _ _ := rfl
  encode v h t x := by
    change ListOffsetPartitionResponse2.encode v (ListOffsetPartitionResponse2_with_Timestamp t x) = ListOffsetPartitionResponse2.encode v t
    change ¬(v ≥ 1) at h
    simp only [ListOffsetPartitionResponse2.encode, ListOffsetPartitionResponse2_with_Timestamp, onlyIf_neg h]
  size v h t x := by
    change ListOffsetPartitionResponse2.size v (ListOffsetPartitionResponse2_with_Timestamp t x) = ListOffsetPartitionResponse2.size v t
    change ¬(v ≥ 1) at h
    simp only [ListOffsetPartitionResponse2.size, ListOffsetPartitionResponse2_with_Timestamp, onlyIf_neg h]
  decode v h := by
    change ¬(v ≥ 1) at h
    refine (?_ : Keeps (fun t : ListOffsetPartitionResponse2 => t.Timestamp) (ListOffsetPartitionResponse2.decode v))
    unfold ListOffsetPartitionResponse2.decode
    repeat' first
      | exact Keeps.absent h
      | apply Keeps.andThen
      | exact Keeps.field fun _ _ => rfl
      | exact Keeps.fieldStructs fun _ _ => rfl
      | apply Keeps.onlyIf
  carried v h t t0 t1 := by
    change (ListOffsetPartitionResponse2.seen v t t0).Timestamp = (ListOffsetPartitionResponse2.seen v t t1).Timestamp
    change v ≥ 1 at h
    simp only [ListOffsetPartitionResponse2.seen, if_pos h]

/-- `t.Offset = x` -/
def ListOffsetPartitionResponse2_with_Offset (t : ListOffsetPartitionResponse2) (x : Int64) : ListOffsetPartitionResponse2 := { t with Offset := x }
/-- `ListOffsetPartitionResponse2.Offset` -/
def ListOffsetPartitionResponse2.gateOffset : Gate :=
  { M := ListOffsetPartitionResponse2.type, L := ListOffsetPartitionResponse2.layout, field := "Offset", α := Int64, present := fun v => v ≥ 1,
    get := fun t => ListOffsetPartitionResponse2.Offset t, set := fun t x => ListOffsetPartitionResponse2_with_Offset t x }
theorem ListOffsetPartitionResponse2.gateOffset_holds : ListOffsetPartitionResponse2.gateOffset.Holds where
  get_set _ _ := rfl
  encode v h t x := by
    change ListOffsetPartitionResponse2.encode v (ListOffsetPartitionResponse2_with_Offset t x) = ListOffsetPartitionResponse2.encode v t
    change ¬(v ≥ 1) at h
    simp only [ListOffsetPartitionResponse2.encode, ListOffsetPartitionResponse2_with_Offset, onlyIf_neg h]
  size v h t x := by
    change ListOffsetPartitionResponse2.size v (ListOffsetPartitionResponse2_with_Offset t x) = ListOffsetPartitionResponse2.size v t
    change ¬(v ≥ 1) at h
    simp only [ListOffsetPartitionResponse2.size, ListOffsetPartitionResponse2_with_Offset, onlyIf_neg h]
  decode v h := by
    change ¬(v ≥ 1) at h
    refine (?_ : Keeps (fun t : ListOffsetPartitionResponse2 => t.Offset) (ListOffsetPartitionResponse2.decode v))
    unfold ListOffsetPartitionResponse2.decode
    repeat' first
      | exact Keeps.absent h
      | apply Keeps.andThen
      | exact Keeps.field fun _ _ => rfl
      | exact Keeps.fieldStructs fun _ _ => rfl
      | apply Keeps.onlyIf
  carried v h t t0 t1 := by
    change (ListOffsetPartitionResponse2.seen v t t0).Offset = (ListOffsetPartitionResponse2.seen v t t1).Offset
    change v ≥ 1 at h
    simp only [ListOffsetPartitionResponse2.seen, if_pos h]

/-- `t.LeaderEpoch = x` -/
def ListOffsetPartitionResponse2_with_LeaderEpoch (t : ListOffsetPartitionResponse2) (x : Int32) : ListOffsetPartitionResponse2 := { t with LeaderEpoch := x }
/-- `ListOffsetPartitionResponse2.LeaderEpoch` -/
def ListOffsetPartitionResponse2.gateLeaderEpoch : Gate :=
  { M := ListOffsetPartitionResponse2.type, L := ListOffsetPartitionResponse2.layout, field := "LeaderEpoch", α := Int32, present := fun v => v ≥ 4,
    get := fun t => ListOffsetPartitionResponse2.LeaderEpoch t, set := fun t x => ListOffsetPartitionResponse2_with_LeaderEpoch t x }
theorem ListOffsetPartitionResponse2.gateLeaderEpoch_holds : ListOffsetPartitionResponse2.gateLeaderEpoch.Holds where
  get_set _ _ := rfl
  encode v h t x := by
    change ListOffsetPartitionResponse2.encode v (ListOffsetPartitionResponse2_with_LeaderEpoch t x) = ListOffsetPartitionResponse2.encode v t
    change ¬(v ≥ 4) at h
    simp only [ListOffsetPartitionResponse2.encode, ListOffsetPartitionResponse2_with_LeaderEpoch, onlyIf_neg h]
  size v h t x := by
    change ListOffsetPartitionResponse2.size v (ListOffsetPartitionResponse2_with_LeaderEpoch t x) = ListOffsetPartitionResponse2.size v t
    change ¬(v ≥ 4) at h
    simp only [ListOffsetPartitionResponse2.size, ListOffsetPartitionResponse2_with_LeaderEpoch, onlyIf_neg h]
  decode v h := by
    change ¬(v ≥ 4) at h
    refine (?_ : Keeps (fun t : ListOffsetPartitionResponse2 => t.LeaderEpoch) (ListOffsetPartitionResponse2.decode v))
    unfold ListOffsetPartitionResponse2.decode
    repeat' first
      | exact Keeps.absent h
      | apply Keeps.andThen
      | exact Keeps.field fun _ _ => rfl
      | exact Keeps.fieldStructs fun _ _ => rfl
      | apply Keeps.onlyIf
  carried v h t t0 t1 := by
    change (ListOffsetPartitionResponse2.seen v t t0).LeaderEpoch = (ListOffsetPartitionResponse2.seen v t t1).LeaderEpoch
    change v ≥ 4 at h
    simp only [ListOffsetPartitionResponse2.seen, if_pos h]

/-- The version-dependent fields of the ListOffset messages. -/
def gatesListOffset : List Gate :=
  [ListOffsetRequest.gateIsolationLevel,
   ListOffsetPartition2.gateCurrentLeaderEpoch,
   ListOffsetPartition2.gateMaxNumOffsets,
   ListOffsetResponse.gateThrottleTimeMs,
   ListOffsetPartitionResponse2.gateOldStyleOffsets,
   ListOffsetPartitionResponse2.gateTimestamp,
   ListOffsetPartitionResponse2.gateOffset,
   ListOffsetPartitionResponse2.gateLeaderEpoch]

theorem gatesListOffset_hold : ∀ g ∈ gatesListOffset, g.Holds := by
  unfold gatesListOffset
  simp only [List.forall_mem_cons]
  exact ⟨ListOffsetRequest.gateIsolationLevel_holds,
    ListOffsetPartition2.gateCurrentLeaderEpoch_holds,
    ListOffsetPartition2.gateMaxNumOffsets_holds,
    ListOffsetResponse.gateThrottleTimeMs_holds,
    ListOffsetPartitionResponse2.gateOldStyleOffsets_holds,
    ListOffsetPartitionResponse2.gateTimestamp_holds,
    ListOffsetPartitionResponse2.gateOffset_holds,
    ListOffsetPartitionResponse2.gateLeaderEpoch_holds,
    fun _ h => absurd h (by simp)⟩

end Kafka.Msg
