import Verif.Message.Gate
import Verif.Gen.Spec.LeaderAndIsr
/-!
Generated by tools/gen_messages.py: the version-dependent fields of the LeaderAndIsr messages.
-/
set_option linter.unusedSimpArgs false
namespace Kafka.Msg

/-- `t.BrokerEpoch = x` -/
def LeaderAndIsrRequest_with_BrokerEpoch (t : LeaderAndIsrRequest) (x : Int64) : LeaderAndIsrRequest := { t with BrokerEpoch := x }
/-- `LeaderAndIsrRequest.BrokerEpoch` -/
def LeaderAndIsrRequest.gateBrokerEpoch : Gate :=
  { M := LeaderAndIsrRequest.type, L := LeaderAndIsrRequest.layout, field := "BrokerEpoch", α := Int64, present := fun v => v ≥ 2,
    get := fun t => LeaderAndIsrRequest.BrokerEpoch t, set := fun t x => LeaderAndIsrRequest_with_BrokerEpoch t x }
theorem LeaderAndIsrRequest.gateBrokerEpoch_holds : LeaderAndIsrRequest.gateBrokerEpoch.Holds where
  get_set _ _ := rfl
  encode v h t x := by
    change LeaderAndIsrRequest.encode v (LeaderAndIsrRequest_with_BrokerEpoch t x) = LeaderAndIsrRequest.encode v t
    change ¬(v ≥ 2) at h
    simp only [LeaderAndIsrRequest.encode, LeaderAndIsrRequest_with_BrokerEpoch, onlyIf_neg h]
  size v h t x := by
    change LeaderAndIsrRequest.size v (LeaderAndIsrRequest_with_BrokerEpoch t x) = LeaderAndIsrRequest.size v t
    change ¬(v ≥ 2) at h
    simp only [LeaderAndIsrRequest.size, LeaderAndIsrRequest_with_BrokerEpoch, onlyIf_neg h]
  decode v h := by
    change ¬(v ≥ 2) at h
    refine (?_ : Keeps (fun t : LeaderAndIsrRequest => t.BrokerEpoch) (LeaderAndIsrRequest.decode v))
    unfold LeaderAndIsrRequest.decode
    repeat' first
      | exact Keeps.absent h
      | apply Keeps.andThen
      | exact Keeps.field fun _ _ => rfl
      | exact Keeps.fieldStructs fun _ _ => rfl
      | apply Keeps.onlyIf
  carried v h t t0 t1 := by
    change (LeaderAndIsrRequest.seen v t t0).BrokerEpoch = (LeaderAndIsrRequest.seen v t t1).BrokerEpoch
    change v ≥ 2 at h
    simp only [LeaderAndIsrRequest.seen, if_pos h]

/-- `t.UngroupedPartitionStates = x` -/
def LeaderAndIsrRequest_with_UngroupedPartitionStates (t : LeaderAndIsrRequest) (x : Slice LeaderAndIsrPartitionState4) : LeaderAndIsrRequest := { t with UngroupedPartitionStates := x }
/-- `LeaderAndIsrRequest.UngroupedPartitionStates` -/
def LeaderAndIsrRequest.gateUngroupedPartitionStates : Gate :=
  { M := LeaderAndIsrRequest.type, L := LeaderAndIsrRequest.layout, field := "UngroupedPartitionStates", α := Slice LeaderAndIsrPartitionState4, present := fun v => v ≥ 0 ∧ v ≤ 1,
    get := fun t => LeaderAndIsrRequest.UngroupedPartitionStates t, set := fun t x => LeaderAndIsrRequest_with_UngroupedPartitionStates t x }
theorem LeaderAndIsrRequest.gateUngroupedPartitionStates_holds : LeaderAndIsrRequest.gateUngroupedPartitionStates.Holds where
  get_set _ _ := rfl
  encode v h t x := by
    change LeaderAndIsrRequest.encode v (LeaderAndIsrRequest_with_UngroupedPartitionStates t x) = LeaderAndIsrRequest.encode v t
    change ¬(v ≥ 0 ∧ v ≤ 1) at h
    simp only [LeaderAndIsrRequest.encode, LeaderAndIsrRequest_with_UngroupedPartitionStates, onlyIf_neg h]
  size v h t x := by
    change LeaderAndIsrRequest.size v (LeaderAndIsrRequest_with_UngroupedPartitionStates t x) = LeaderAndIsrRequest.size v t
    change ¬(v ≥ 0 ∧ v ≤ 1) at h
    simp only [LeaderAndIsrRequest.size, LeaderAndIsrRequest_with_UngroupedPartitionStates, onlyIf_neg h]
  decode v h := by
    change ¬(v ≥ 0 ∧ v ≤ 1) at h
    refine (?_ : Keeps (fun t : LeaderAndIsrRequest => t.UngroupedPartitionStates) (LeaderAndIsrRequest.decode v))
    unfold LeaderAndIsrRequest.decode
    repeat' first
      | exact Keeps.absent h
      | apply Keeps.andThen
      | exact Keeps.field fun _ _ => rfl
      | exact Keeps.fieldStructs fun _ _ => rfl
      | apply Keeps.onlyIf
  carried v h t t0 t1 := by
    change (LeaderAndIsrRequest.seen v t t0).UngroupedPartitionStates = (LeaderAndIsrRequest.seen v t t1).UngroupedPartitionStates
    change v ≥ 0 ∧ v ≤ 1 at h
    simp only [LeaderAndIsrRequest.seen, if_pos h]

/-- `t.TopicStates = x` -/
def LeaderAndIsrRequest_with_TopicStates (t : LeaderAndIsrRequest) (x : Slice LeaderAndIsrTopicState4) : LeaderAndIsrRequest := { t with TopicStates := x }
/-- `LeaderAndIsrRequest.TopicStates` -/
def LeaderAndIsrRequest.gateTopicStates : Gate :=
  { M := LeaderAndIsrRequest.type, L := LeaderAndIsrRequest.layout, field := "TopicStates", α := Slice LeaderAndIsrTopicState4, present := fun v => v ≥ 2,
    get := fun t => LeaderAndIsrRequest.TopicStates t, set := fun t x => LeaderAndIsrRequest_with_TopicStates t x }
theorem LeaderAndIsrRequest.gateTopicStates_holds : LeaderAndIsrRequest.gateTopicStates.Holds where
  get_set _ _ := rfl
  encode v h t x := by
    change LeaderAndIsrRequest.encode v (LeaderAndIsrRequest_with_TopicStates t x) = LeaderAndIsrRequest.encode v t
    change ¬(v ≥ 2) at h
    simp only [LeaderAndIsrRequest.encode, LeaderAndIsrRequest_with_TopicStates, onlyIf_neg h]
  size v h t x := by
    change LeaderAndIsrRequest.size v (LeaderAndIsrRequest_with_TopicStates t x) = LeaderAndIsrRequest.size v t
    change ¬(v ≥ 2) at h
    simp only [LeaderAndIsrRequest.size, LeaderAndIsrRequest_with_TopicStates, onlyIf_neg h]
  decode v h := by
    change ¬(v ≥ 2) at h
    refine (?_ : Keeps (fun t : LeaderAndIsrRequest => t.TopicStates) (LeaderAndIsrRequest.decode v))
    unfold LeaderAndIsrRequest.decode
    repeat' first
      | exact Keeps.absent h
      | apply Keeps.andThen
      | exact Keeps.field fun _ _ => rfl
      | exact Keeps.fieldStructs fun _ _ => rfl
      | apply Keeps.onlyIf
  carried v h t t0 t1 := by
    change (LeaderAndIsrRequest.seen v t t0).TopicStates = (LeaderAndIsrRequest.seen v t t1).TopicStates
    change v ≥ 2 at h
    simp only [LeaderAndIsrRequest.seen, if_pos h]

/-- `t.TopicName = x` -/
def LeaderAndIsrTopicState4_with_TopicName (t : LeaderAndIsrTopicState4) (x : GoString) : LeaderAndIsrTopicState4 := { t with TopicName := x }
/-- `LeaderAndIsrTopicState4.TopicName` -/
def LeaderAndIsrTopicState4.gateTopicName : Gate :=
  { M := LeaderAndIsrTopicState4.type, L := LeaderAndIsrTopicState4.layout, field := "TopicName", α := GoString, present := fun v => v ≥ 2,
    get := fun t => LeaderAndIsrTopicState4.TopicName t, set := fun t x => LeaderAndIsrTopicState4_with_TopicName t x }
theorem LeaderAndIsrTopicState4.gateTopicName_holds : LeaderAndIsrTopicState4.gateTopicName.Holds where
  get_set _ _ := rfl
  encode v h t x := by
    change LeaderAndIsrTopicState4.encode v (LeaderAndIsrTopicState4_with_TopicName t x) = LeaderAndIsrTopicState4.encode v t
    change ¬(v ≥ 2) at h
    simp only [LeaderAndIsrTopicState4.encode, LeaderAndIsrTopicState4_with_TopicName, onlyIf_neg h]
  size v h t x := by
    change LeaderAndIsrTopicState4.size v (LeaderAndIsrTopicState4_with_TopicName t x) = LeaderAndIsrTopicState4.size v t
    change ¬(v ≥ 2) at h
    simp only [LeaderAndIsrTopicState4.size, LeaderAndIsrTopicState4_with_TopicName, onlyIf_neg h]
  decode v h := by
    change ¬(v ≥ 2) at h
    refine (?_ : Keeps (fun t : LeaderAndIsrTopicState4 => t.TopicName) (LeaderAndIsrTopicState4.decode v))
    unfold LeaderAndIsrTopicState4.decode
    repeat' first
      | exact Keeps.absent h
      | apply Keeps.andThen
      | exact Keeps.field fun _ _ => rfl
      | exact Keeps.fieldStructs fun _ _ => rfl
      | apply Keeps.onlyIf
  carried v h t t0 t1 := by
    change (LeaderAndIsrTopicState4.seen v t t0).TopicName = (LeaderAndIsrTopicState4.seen v t t1).TopicName
    change v ≥ 2 at h
    simp only [LeaderAndIsrTopicState4.seen, if_pos h]

/-- `t.PartitionStates = x` -/
def LeaderAndIsrTopicState4_with_PartitionStates (t : LeaderAndIsrTopicState4) (x : Slice LeaderAndIsrPartitionState4) : LeaderAndIsrTopicState4 := { t with PartitionStates := x }
/-- `LeaderAndIsrTopicState4.PartitionStates` -/
def LeaderAndIsrTopicState4.gatePartitionStates : Gate :=
  { M := LeaderAndIsrTopicState4.type, L := LeaderAndIsrTopicState4.layout, field := "PartitionStates", α := Slice LeaderAndIsrPartitionState4, present := fun v => v ≥ 2,
    get := fun t => LeaderAndIsrTopicState4.PartitionStates t, set := fun t x => LeaderAndIsrTopicState4_with_PartitionStates t x }
theorem LeaderAndIsrTopicState4.gatePartitionStates_holds : LeaderAndIsrTopicState4.gatePartitionStates.Holds where
  get_set _ _ := rfl
  encode v h t x := by
    change LeaderAndIsrTopicState4.encode v (LeaderAndIsrTopicState4_with_PartitionStates t x) = LeaderAndIsrTopicState4.encode v t
    change ¬(v ≥ 2) at h
    simp only [LeaderAndIsrTopicState4.encode, LeaderAndIsrTopicState4_with_PartitionStates, onlyIf_neg h]
  size v h t x := by
    change LeaderAndIsrTopicState4.size v (LeaderAndIsrTopicState4_with_PartitionStates t x) = LeaderAndIsrTopicState4.size v t
    change ¬(v ≥ 2) at h
    simp only [LeaderAndIsrTopicState4.size, LeaderAndIsrTopicState4_with_PartitionStates, onlyIf_neg h]
  decode v h := by
    change ¬(v ≥ 2) at h
    refine (?_ : Keeps (fun t : LeaderAndIsrTopicState4 => t.PartitionStates) (LeaderAndIsrTopicState4.decode v))
    unfold LeaderAndIsrTopicState4.decode
    repeat' first
      | exact Keeps.absent h
      | apply Keeps.andThen
      | exact Keeps.field fun _ _ => rfl
      | exact Keeps.fieldStructs fun _ _ => rfl
      | apply Keeps.onlyIf
  carried v h t t0 t1 := by
    change (LeaderAndIsrTopicState4.seen v t t0).PartitionStates = (LeaderAndIsrTopicState4.seen v t t1).PartitionStates
    change v ≥ 2 at h
    simp only [LeaderAndIsrTopicState4.seen, if_pos h]

/-- `t.TopicName = x` -/
def LeaderAndIsrPartitionState4_with_TopicName (t : LeaderAndIsrPartitionState4) (x : GoString) : LeaderAndIsrPartitionState4 := { t with TopicName := x }
/-- `LeaderAndIsrPartitionState4.TopicName` -/
def LeaderAndIsrPartitionState4.gateTopicName : Gate :=
  { M := LeaderAndIsrPartitionState4.type, L := LeaderAndIsrPartitionState4.layout, field := "TopicName", α := GoString, present := fun v => v ≥ 0 ∧ v ≤ 1,
    get := fun t => LeaderAndIsrPartitionState4.TopicName t, set := fun t x => LeaderAndIsrPartitionState4_with_TopicName t x }
theorem LeaderAndIsrPartitionState4.gateTopicName_holds : LeaderAndIsrPartitionState4.gateTopicName.Holds where
  get_set _ _ := rfl
  encode v h t x := by
    change LeaderAndIsrPartitionState4.encode v (LeaderAndIsrPartitionState4_with_TopicName t x) = LeaderAndIsrPartitionState4.encode v t
    change ¬(v ≥ 0 ∧ v ≤ 1) at h
    simp only [LeaderAndIsrPartitionState4.encode, LeaderAndIsrPartitionState4_with_TopicName, onlyIf_neg h]
  size v h t x := by
    change LeaderAndIsrPartitionState4.size v (LeaderAndIsrPartitionState4_with_TopicName t x) = LeaderAndIsrPartitionState4.size v t
    change ¬(v ≥ 0 ∧ v ≤ 1) at h
    simp only [LeaderAndIsrPartitionState4.size, LeaderAndIsrPartitionState4_with_TopicName, onlyIf_neg h]
  decode v h := by
    change ¬(v ≥ 0 ∧ v ≤ 1) at h
    refine (?_ : Keeps (fun t : LeaderAndIsrPartitionState4 => t.TopicName) (LeaderAndIsrPartitionState4.decode v))
    unfold LeaderAndIsrPartitionState4.decode
    repeat' first
      | exact Keeps.absent h
      | apply Keeps.andThen
      | exact Keeps.field fun _ _ => rfl
      | exact Keeps.fieldStructs fun _ _ => rfl
      | apply Keeps.onlyIf
  carried v h t t0 t1 := by
    change (LeaderAndIsrPartitionState4.seen v t t0).TopicName = (LeaderAndIsrPartitionState4.seen v t t1).TopicName
    change v ≥ 0 ∧ v ≤ 1 at h
    simp only [LeaderAndIsrPartitionState4.seen, if_pos h]

/-- `t.AddingReplicas = x` -/
def LeaderAndIsrPartitionState4_with_AddingReplicas (t : LeaderAndIsrPartitionState4) (x : Slice Int32) : LeaderAndIsrPartitionState4 := { t with AddingReplicas := x }
/-- `LeaderAndIsrPartitionState4.AddingReplicas` -/
def LeaderAndIsrPartitionState4.gateAddingReplicas : Gate :=
  { M := LeaderAndIsrPartitionState4.type, L := LeaderAndIsrPartitionState4.layout, field := "AddingReplicas", α := Slice Int32, present := fun v => v ≥ 3,
    get := fun t => LeaderAndIsrPartitionState4.AddingReplicas t, set := fun t x => LeaderAndIsrPartitionState4_with_AddingReplicas t x }
theorem LeaderAndIsrPartitionState4.gateAddingReplicas_holds : LeaderAndIsrPartitionState4.gateAddingReplicas.Holds where
  get_set _ _ := rfl
  encode v h t x := by
    change LeaderAndIsrPartitionState4.encode v (LeaderAndIsrPartitionState4_with_AddingReplicas t x) = LeaderAndIsrPartitionState4.encode v t
    change ¬(v ≥ 3) at h
    simp only [LeaderAndIsrPartitionState4.encode, LeaderAndIsrPartitionState4_with_AddingReplicas, onlyIf_neg h]
  size v h t x := by
    change LeaderAndIsrPartitionState4.size v (LeaderAndIsrPartitionState4_with_AddingReplicas t x) = LeaderAndIsrPartitionState4.size v t
    change ¬(v ≥ 3) at h
    simp only [LeaderAndIsrPartitionState4.size, LeaderAndIsrPartitionState4_with_AddingReplicas, onlyIf_neg h]
  decode v h := by
    change ¬(v ≥ 3) at h
    refine (?_ : Keeps (fun t : LeaderAndIsrPartitionState4 => t.AddingReplicas) (LeaderAndIsrPartitionState4.decode v))
    unfold LeaderAndIsrPartitionState4.decode
    repeat' first
      | exact Keeps.absent h
      | apply Keeps.andThen
      | exact Keeps.field fun _ _ => rfl
      | exact Keeps.fieldStructs fun _ _ => rfl
      | apply Keeps.onlyIf
  carried v h t t0 t1 := by
    change (LeaderAndIsrPartitionState4.seen v t t0).AddingReplicas = (LeaderAndIsrPartitionState4.seen v t t1).AddingReplicas
    change v ≥ 3 at h
    simp only [LeaderAndIsrPartitionState4.seen, if_pos h]

/-- `t.RemovingReplicas = x` -/
def LeaderAndIsrPartitionState4_with_RemovingReplicas (t : LeaderAndIsrPartitionState4) (x : Slice Int32) : LeaderAndIsrPartitionState4 := { t with RemovingReplicas := x }
/-- `LeaderAndIsrPartitionState4.RemovingReplicas` -/
def LeaderAndIsrPartitionState4.gateRemovingReplicas : Gate :=
  { M := LeaderAndIsrPartitionState4.type, L := LeaderAndIsrPartitionState4.layout, field := "RemovingReplicas", α := Slice Int32, present := fun v => v ≥ 3,
    get := fun t => LeaderAndIsrPartitionState4.RemovingReplicas t, set := fun t x => LeaderAndIsrPartitionState4_with_RemovingReplicas t x }
theorem LeaderAndIsrPartitionState4.gateRemovingReplicas_holds : LeaderAndIsrPartitionState4.gateRemovingReplicas.Holds where
  get_set _ _ := rfl
  encode v h t x := by
    change LeaderAndIsrPartitionState4.encode v (LeaderAndIsrPartitionState4_with_RemovingReplicas t x) = LeaderAndIsrPartitionState4.encode v t
    change ¬(v ≥ 3) at h
    simp only [LeaderAndIsrPartitionState4.encode, LeaderAndIsrPartitionState4_with_RemovingReplicas, onlyIf_neg h]
  size v h t x := by
    change LeaderAndIsrPartitionState4.size v (LeaderAndIsrPartitionState4_with_RemovingReplicas t x) = LeaderAndIsrPartitionState4.size v t
    change ¬(v ≥ 3) at h
    simp only [LeaderAndIsrPartitionState4.size, LeaderAndIsrPartitionState4_with_RemovingReplicas, onlyIf_neg h]
  decode v h := by
    change ¬(v ≥ 3) at h
    refine (?_ : Keeps (fun t : LeaderAndIsrPartitionState4 => t.RemovingReplicas) (LeaderAndIsrPartitionState4.decode v))
    unfold LeaderAndIsrPartitionState4.decode
    repeat' first
      | exact Keeps.absent h
      | apply Keeps.andThen
      | exact Keeps.field fun _ _ => rfl
      | exact Keeps.fieldStructs fun _ _ => rfl
      | apply Keeps.onlyIf
  carried v h t t0 t1 := by
    change (LeaderAndIsrPartitionState4.seen v t t0).RemovingReplicas = (LeaderAndIsrPartitionState4.seen v t t1).RemovingReplicas
    change v ≥ 3 at h
    simp only [LeaderAndIsrPartitionState4.seen, if_pos h]

/-- `t.IsNew = x` -/
def LeaderAndIsrPartitionState4_with_IsNew (t : LeaderAndIsrPartitionState4) (x : Bool) : LeaderAndIsrPartitionState4 := { t with IsNew := x }
/-- `LeaderAndIsrPartitionState4.IsNew` -/
def LeaderAndIsrPartitionState4.gateIsNew : Gate :=
  { M := LeaderAndIsrPartitionState4.type, L := LeaderAndIsrPartitionState4.layout, field := "IsNew", α := Bool, present := fun v => v ≥ 1,
    get := fun t => LeaderAndIsrPartitionState4.IsNew t, set := fun t x => LeaderAndIsrPartitionState4_with_IsNew t x }
theorem LeaderAndIsrPartitionState4.gateIsNew_holds : LeaderAndIsrPartitionState4.gateIsNew.Holds where
  get_set _ _ := rfl
  encode v h t x := by
    change LeaderAndIsrPartitionState4.encode v (LeaderAndIsrPartitionState4_with_IsNew t x) = LeaderAndIsrPartitionState4.encode v t
    change ¬(v ≥ 1) at h
    simp only [LeaderAndIsrPartitionState4.encode, LeaderAndIsrPartitionState4_with_IsNew, onlyIf_neg h]
  size v h t x := by
    change LeaderAndIsrPartitionState4.size v (LeaderAndIsrPartitionState4_with_IsNew t x) = LeaderAndIsrPartitionState4.size v t
    change ¬(v ≥ 1) at h
    simp only [LeaderAndIsrPartitionState4.size, LeaderAndIsrPartitionState4_with_IsNew, onlyIf_neg h]
  decode v h := by
    change ¬(v ≥ 1) at h
    refine (?_ : Keeps (fun t : LeaderAndIsrPartitionState4 => t.IsNew) (LeaderAndIsrPartitionState4.decode v))
    unfold LeaderAndIsrPartitionState4.decode
    repeat' first
      | exact Keeps.absent h
      | apply Keeps.andThen
      | exact Keeps.field fun _ _ => rfl
      | exact Keeps.fieldStructs fun _ _ => rfl
      | apply Keeps.onlyIf
  carried v h t t0 t1 := by
    change (LeaderAndIsrPartitionState4.seen v t t0).IsNew = (LeaderAndIsrPartitionState4.seen v t t1).IsNew
    change v ≥ 1 at h
    simp only [LeaderAndIsrPartitionState4.seen, if_pos h]

/-- The version-dependent fields of the LeaderAndIsr messages. -/
def gatesLeaderAndIsr : List Gate :=
  [LeaderAndIsrRequest.gateBrokerEpoch,
   LeaderAndIsrRequest.gateUngroupedPartitionStates,
   LeaderAndIsrRequest.gateTopicStates,
   LeaderAndIsrTopicState4.gateTopicName,
   LeaderAndIsrTopicState4.gatePartitionStates,
   LeaderAndIsrPartitionState4.gateTopicName,
   LeaderAndIsrPartitionState4.gateAddingReplicas,
   LeaderAndIsrPartitionState4.gateRemovingReplicas,
   LeaderAndIsrPartitionState4.gateIsNew]

theorem gatesLeaderAndIsr_hold : ∀ g ∈ gatesLeaderAndIsr, g.Holds := by
  unfold gatesLeaderAndIsr
  simp only [List.forall_mem_cons]
  exact ⟨LeaderAndIsrRequest.gateBrokerEpoch_holds,
    LeaderAndIsrRequest.gateUngroupedPartitionStates_holds,
    LeaderAndIsrRequest.gateTopicStates_holds,
    LeaderAndIsrTopicState4.gateTopicName_holds,
    LeaderAndIsrTopicState4.gatePartitionStates_holds,
    LeaderAndIsrPartitionState4.gateTopicName_holds,
    LeaderAndIsrPartitionState4.gateAddingReplicas_holds,
    LeaderAndIsrPartitionState4.gateRemovingReplicas_holds,
    LeaderAndIsrPartitionState4.gateIsNew_holds,
    fun _ h => absurd h (by simp)⟩

end Kafka.Msg
