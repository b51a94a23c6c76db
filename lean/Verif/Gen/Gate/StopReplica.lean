import Verif.Message.Gate
import Verif.Gen.Spec.StopReplica
/-!
Generated by tools/gen_messages.py: the version-dependent fields of the StopReplica messages.
-/
set_option linter.unusedSimpArgs false
namespace Kafka.Msg

/-- `t.BrokerEpoch = x` -/
def StopReplicaRequest_with_BrokerEpoch (t : StopReplicaRequest) (x : Int64) : StopReplicaRequest := { t with BrokerEpoch := x }
/-- `StopReplicaRequest.BrokerEpoch` -/
def StopReplicaRequest.gateBrokerEpoch : Gate :=
  { M := StopReplicaRequest.type, L := StopReplicaRequest.layout, field := "BrokerEpoch", α := Int64, present := fun v => v ≥ 1,
    get := fun t => StopReplicaRequest.BrokerEpoch t, set := fun t x => StopReplicaRequest_with_BrokerEpoch t x }
theorem StopReplicaRequest.gateBrokerEpoch_holds : StopReplicaRequest.gateBrokerEpoch.Holds where
  get_set _ _ := rfl
  encode v h t x := by
    change StopReplicaRequest.encode v (StopReplicaRequest_with_BrokerEpoch t x) = StopReplicaRequest.encode v t
    change ¬(v ≥ 1) at h
    simp only [StopReplicaRequest.encode, StopReplicaRequest_with_BrokerEpoch, onlyIf_neg h]
  size v h t x := by
    change StopReplicaRequest.size v (StopReplicaRequest_with_BrokerEpoch t x) = StopReplicaRequest.size v t
    change ¬(v ≥ 1) at h
    simp only [StopReplicaRequest.size, StopReplicaRequest_with_BrokerEpoch, onlyIf_neg h]
  decode v h := by
    change ¬(v ≥ 1) at h
    refine (?_ : Keeps (fun t : StopReplicaRequest => t.BrokerEpoch) (StopReplicaRequest.decode v))
    unfold StopReplicaRequest.decode
    repeat' first
      | exact Keeps.absent h
      | apply Keeps.andThen
      | exact Keeps.field fun _ _ => rfl
      | exact Keeps.fieldStructs fun _ _ => rfl
      | apply Keeps.onlyIf
  carried v h t t0 t1 := by
    change (StopReplicaRequest.seen v t t0).BrokerEpoch = (StopReplicaRequest.seen v t t1).BrokerEpoch
    change v ≥ 1 at h
    simp only [StopReplicaRequest.seen, if_pos h]

/-- `t.UngroupedPartitions = x` -/
def StopReplicaRequest_with_UngroupedPartitions (t : StopReplicaRequest) (x : Slice StopReplicaPartitionV05) : StopReplicaRequest := { t with UngroupedPartitions := x }
/-- `StopReplicaRequest.UngroupedPartitions` -/
def StopReplicaRequest.gateUngroupedPartitions : Gate :=
  { M := StopReplicaRequest.type, L := StopReplicaRequest.layout, field := "UngroupedPartitions", α := Slice StopReplicaPartitionV05, present := fun v => v ≥ 0 ∧ v ≤ 0,
    get := fun t => StopReplicaRequest.UngroupedPartitions t, set := fun t x => StopReplicaRequest_with_UngroupedPartitions t x }
theorem StopReplicaRequest.gateUngroupedPartitions_holds : StopReplicaRequest.gateUngroupedPartitions.Holds where
  get_set _ _ := rfl
  encode v h t x := by
    change StopReplicaRequest.encode v (StopReplicaRequest_with_UngroupedPartitions t x) = StopReplicaRequest.encode v t
    change ¬(v ≥ 0 ∧ v ≤ 0) at h
    simp only [StopReplicaRequest.encode, StopReplicaRequest_with_UngroupedPartitions, onlyIf_neg h]
  size v h t x := by
    change StopReplicaRequest.size v (StopReplicaRequest_with_UngroupedPartitions t x) = StopReplicaRequest.size v t
    change ¬(v ≥ 0 ∧ v ≤ 0) at h
    simp only [StopReplicaRequest.size, StopReplicaRequest_with_UngroupedPartitions, onlyIf_neg h]
  decode v h := by
    change ¬(v ≥ 0 ∧ v ≤ 0) at h
    refine (?_ : Keeps (fun t : StopReplicaRequest => t.UngroupedPartitions) (StopReplicaRequest.decode v))
    unfold StopReplicaRequest.decode
    repeat' first
      | exact Keeps.absent h
      | apply Keeps.andThen
      | exact Keeps.field fun _ _ => rfl
      | exact Keeps.fieldStructs fun _ _ => rfl
      | apply Keeps.onlyIf
  carried v h t t0 t1 := by
    change (StopReplicaRequest.seen v t t0).UngroupedPartitions = (StopReplicaRequest.seen v t t1).UngroupedPartitions
    change v ≥ 0 ∧ v ≤ 0 at h
    simp only [StopReplicaRequest.seen, if_pos h]

/-- `t.Topics = x` -/
def StopReplicaRequest_with_Topics (t : StopReplicaRequest) (x : Slice StopReplicaTopic5) : StopReplicaRequest := { t with Topics := x }
/-- `StopReplicaRequest.Topics` -/
def StopReplicaRequest.gateTopics : Gate :=
  { M := StopReplicaRequest.type, L := StopReplicaRequest.layout, field := "Topics", α := Slice StopReplicaTopic5, present := fun v => v ≥ 1,
    get := fun t => StopReplicaRequest.Topics t, set := fun t x => StopReplicaRequest_with_Topics t x }
theorem StopReplicaRequest.gateTopics_holds : StopReplicaRequest.gateTopics.Holds where
  get_set _ _ := rfl
  encode v h t x := by
    change StopReplicaRequest.encode v (StopReplicaRequest_with_Topics t x) = StopReplicaRequest.encode v t
    change ¬(v ≥ 1) at h
    simp only [StopReplicaRequest.encode, StopReplicaRequest_with_Topics, onlyIf_neg h]
  size v h t x := by
    change StopReplicaRequest.size v (StopReplicaRequest_with_Topics t x) = StopReplicaRequest.size v t
    change ¬(v ≥ 1) at h
    simp only [StopReplicaRequest.size, StopReplicaRequest_with_Topics, onlyIf_neg h]
  decode v h := by
    change ¬(v ≥ 1) at h
    refine (?_ : Keeps (fun t : StopReplicaRequest => t.Topics) (StopReplicaRequest.decode v))
    unfold StopReplicaRequest.decode
    repeat' first
      | exact Keeps.absent h
      | apply Keeps.andThen
      | exact Keeps.field fun _ _ => rfl
      | exact Keeps.fieldStructs fun _ _ => rfl
      | apply Keeps.onlyIf
  carried v h t t0 t1 := by
    change (StopReplicaRequest.seen v t t0).Topics = (StopReplicaRequest.seen v t t1).Topics
    change v ≥ 1 at h
    simp only [StopReplicaRequest.seen, if_pos h]

/-- `t.TopicName = x` -/
def StopReplicaPartitionV05_with_TopicName (t : StopReplicaPartitionV05) (x : GoString) : StopReplicaPartitionV05 := { t with TopicName := x }
/-- `StopReplicaPartitionV05.TopicName` -/
def StopReplicaPartitionV05.gateTopicName : Gate :=
  { M := StopReplicaPartitionV05.type, L := StopReplicaPartitionV05.layout, field := "TopicName", α := GoString, present := fun v => v ≥ 0 ∧ v ≤ 0,
    get := fun t => StopReplicaPartitionV05.TopicName t, set := fun t x => StopReplicaPartitionV05_with_TopicName t x }
theorem StopReplicaPartitionV05.gateTopicName_holds : StopReplicaPartitionV05.gateTopicName.Holds where
  get_set _ _ := rfl
  encode v h t x := by
    change StopReplicaPartitionV05.encode v (StopReplicaPartitionV05_with_TopicName t x) = StopReplicaPartitionV05.encode v t
    change ¬(v ≥ 0 ∧ v ≤ 0) at h
    simp only [StopReplicaPartitionV05.encode, StopReplicaPartitionV05_with_TopicName, onlyIf_neg h]
  size v h t x := by
    change StopReplicaPartitionV05.size v (StopReplicaPartitionV05_with_TopicName t x) = StopReplicaPartitionV05.size v t
    change ¬(v ≥ 0 ∧ v ≤ 0) at h
    simp only [StopReplicaPartitionV05.size, StopReplicaPartitionV05_with_TopicName, onlyIf_neg h]
  decode v h := by
    change ¬(v ≥ 0 ∧ v ≤ 0) at h
    refine (?_ : Keeps (fun t : StopReplicaPartitionV05 => t.TopicName) (StopReplicaPartitionV05.decode v))
    unfold StopReplicaPartitionV05.decode
    repeat' first
      | exact Keeps.absent h
      | apply Keeps.andThen
      | exact Keeps.field fun _ _ => rfl
      | exact Keeps.fieldStructs fun _ _ => rfl
      | apply Keeps.onlyIf
  carried v h t t0 t1 := by
    change (StopReplicaPartitionV05.seen v t t0).TopicName = (StopReplicaPartitionV05.seen v t t1).TopicName
    change v ≥ 0 ∧ v ≤ 0 at h
    simp only [StopReplicaPartitionV05.seen, if_pos h]

/-- `t.PartitionIndex = x` -/
def StopReplicaPartitionV05_with_PartitionIndex (t : StopReplicaPartitionV05) (x : Int32) : StopReplicaPartitionV05 := { t with PartitionIndex := x }
/-- `StopReplicaPartitionV05.PartitionIndex` -/
def StopReplicaPartitionV05.gatePartitionIndex : Gate :=
  { M := StopReplicaPartitionV05.type, L := StopReplicaPartitionV05.layout, field := "PartitionIndex", α := Int32, present := fun v => v ≥ 0 ∧ v ≤ 0,
    get := fun t => StopReplicaPartitionV05.PartitionIndex t, set := fun t x => StopReplicaPartitionV05_with_PartitionIndex t x }
theorem StopReplicaPartitionV05.gatePartitionIndex_holds : StopReplicaPartitionV05.gatePartitionIndex.Holds where
  get_set _ _ := rfl
  encode v h t x := by
    change StopReplicaPartitionV05.encode v (StopReplicaPartitionV05_with_PartitionIndex t x) = StopReplicaPartitionV05.encode v t
    change ¬(v ≥ 0 ∧ v ≤ 0) at h
    simp only [StopReplicaPartitionV05.encode, StopReplicaPartitionV05_with_PartitionIndex, onlyIf_neg h]
  size v h t x := by
    change StopReplicaPartitionV05.size v (StopReplicaPartitionV05_with_PartitionIndex t x) = StopReplicaPartitionV05.size v t
    change ¬(v ≥ 0 ∧ v ≤ 0) at h
    simp only [StopReplicaPartitionV05.size, StopReplicaPartitionV05_with_PartitionIndex, onlyIf_neg h]
  decode v h := by
    change ¬(v ≥ 0 ∧ v ≤ 0) at h
    refine (?_ : Keeps (fun t : StopReplicaPartitionV05 => t.PartitionIndex) (StopReplicaPartitionV05.decode v))
    unfold StopReplicaPartitionV05.decode
    repeat' first
      | exact Keeps.absent h
      | apply Keeps.andThen
      | exact Keeps.field fun _ _ => rfl
      | exact Keeps.fieldStructs fun _ _ => rfl
      | apply Keeps.onlyIf
  carried v h t t0 t1 := by
    change (StopReplicaPartitionV05.seen v t t0).PartitionIndex = (StopReplicaPartitionV05.seen v t t1).PartitionIndex
    change v ≥ 0 ∧ v ≤ 0 at h
    simp only [StopReplicaPartitionV05.seen, if_pos h]

/-- `t.Name = x` -/
def StopReplicaTopic5_with_Name (t : StopReplicaTopic5) (x : GoString) : StopReplicaTopic5 := { t with Name := x }
/-- `StopReplicaTopic5.Name` -/
def StopReplicaTopic5.gateName : Gate :=
  { M := StopReplicaTopic5.type, L := StopReplicaTopic5.layout, field := "Name", α := GoString, present := fun v => v ≥ 1,
    get := fun t => StopReplicaTopic5.Name t, set := fun t x => StopReplicaTopic5_with_Name t x }
theorem StopReplicaTopic5.gateName_holds : StopReplicaTopic5.gateName.Holds where
  get_set _ _ := rfl
  encode v h t x := by
    change StopReplicaTopic5.encode v (StopReplicaTopic5_with_Name t x) = StopReplicaTopic5.encode v t
    change ¬(v ≥ 1) at h
    simp only [StopReplicaTopic5.encode, StopReplicaTopic5_with_Name, onlyIf_neg h]
  size v h t x := by
    change StopReplicaTopic5.size v (StopReplicaTopic5_with_Name t x) = StopReplicaTopic5.size v t
    change ¬(v ≥ 1) at h
    simp only [StopReplicaTopic5.size, StopReplicaTopic5_with_Name, onlyIf_neg h]
  decode v h := by
    change ¬(v ≥ 1) at h
    refine (?_ : Keeps (fun t : StopReplicaTopic5 => t.Name) (StopReplicaTopic5.decode v))
    unfold StopReplicaTopic5.decode
    repeat' first
      | exact Keeps.absent h
      | apply Keeps.andThen
      | exact Keeps.field fun _ _ => rfl
      | exact Keeps.fieldStructs fun _ _ => rfl
      | apply Keeps.onlyIf
  carried v h t t0 t1 := by
    change (StopReplicaTopic5.seen v t t0).Name = (StopReplicaTopic5.seen v t t1).Name
    change v ≥ 1 at h
    simp only [StopReplicaTopic5.seen, if_pos h]

/-- `t.PartitionIndexes = x` -/
def StopReplicaTopic5_with_PartitionIndexes (t : StopReplicaTopic5) (x : Slice Int32) : StopReplicaTopic5 := { t with PartitionIndexes := x }
/-- `StopReplicaTopic5.PartitionIndexes` -/
def StopReplicaTopic5.gatePartitionIndexes : Gate :=
  { M := StopReplicaTopic5.type, L := StopReplicaTopic5.layout, field := "PartitionIndexes", α := Slice Int32, present := fun v => v ≥ 1,
    get := fun t => StopReplicaTopic5.PartitionIndexes t, set := fun t x => StopReplicaTopic5_with_PartitionIndexes t x }
theorem StopReplicaTopic5.gatePartitionIndexes_holds : StopReplicaTopic5.gatePartitionIndexes.Holds where
  get_set _ _ := rfl
  encode v h t x := by
    change StopReplicaTopic5.encode v (StopReplicaTopic5_with_PartitionIndexes t x) = StopReplicaTopic5.encode v t
    change ¬(v ≥ 1) at h
    simp only [StopReplicaTopic5.encode, StopReplicaTopic5_with_PartitionIndexes, onlyIf_neg h]
  size v h t x := by
    change StopReplicaTopic5.size v (StopReplicaTopic5_with_PartitionIndexes t x) = StopReplicaTopic5.size v t
    change ¬(v ≥ 1) at h
    simp only [StopReplicaTopic5.size, StopReplicaTopic5_with_PartitionIndexes, onlyIf_neg h]
  decode v h := by
    change ¬(v ≥ 1) at h
    refine (?_ : Keeps (fun t : StopReplicaTopic5 => t.PartitionIndexes) (StopReplicaTopic5.decode v))
    unfold StopReplicaTopic5.decode
    repeat' first
      | exact Keeps.absent h
      | apply Keeps.andThen
      | exact Keeps.field fun _ _ => rfl
      | exact Keeps.fieldStructs fun _ _ => rfl
      | apply Keeps.onlyIf
  carried v h t t0 t1 := by
    change (StopReplicaTopic5.seen v t t0).PartitionIndexes = (StopReplicaTopic5.seen v t t1).PartitionIndexes
    change v ≥ 1 at h
    simp only [StopReplicaTopic5.seen, if_pos h]

/-- The version-dependent fields of the StopReplica messages. -/
def gatesStopReplica : List Gate :=
  [StopReplicaRequest.gateBrokerEpoch,
   StopReplicaRequest.gateUngroupedPartitions,
   StopReplicaRequest.gateTopics,
   StopReplicaPartitionV05.gateTopicName,
   StopReplicaPartitionV05.gatePartitionIndex,
   StopReplicaTopic5.gateName,
   StopReplicaTopic5.gatePartitionIndexes]

theorem gatesStopReplica_hold : ∀ g ∈ gatesStopReplica, g.Holds := by
  unfold gatesStopReplica
  simp only [List.forall_mem_cons]
  exact ⟨StopReplicaRequest.gateBrokerEpoch_holds,
    StopReplicaRequest.gateUngroupedPartitions_holds,
    StopReplicaRequest.gateTopics_holds,
    StopReplicaPartitionV05.gateTopicName_holds,
    StopReplicaPartitionV05.gatePartitionIndex_holds,
    StopReplicaTopic5.gateName_holds,
    StopReplicaTopic5.gatePartitionIndexes_holds,
    fun _ h => absurd h (by simp)⟩

end Kafka.Msg
