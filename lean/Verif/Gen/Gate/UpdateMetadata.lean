import Verif.Message.Gate
import Verif.Gen.Spec.UpdateMetadata
/-!
Generated by tools/gen_messages.py: the version-dependent fields of the UpdateMetadata messages.
-/
set_option linter.unusedSimpArgs false
namespace Kafka.Msg

/-- `t.BrokerEpoch = x` -/
def UpdateMetadataRequest_with_BrokerEpoch (t : UpdateMetadataRequest) (x : Int64) : UpdateMetadataRequest := { t with BrokerEpoch := x }
/-- `UpdateMetadataRequest.BrokerEpoch` -/
def UpdateMetadataRequest.gateBrokerEpoch : Gate :=
  { M := UpdateMetadataRequest.type, L := UpdateMetadataRequest.layout, field := "BrokerEpoch", α := Int64, present := fun v => v ≥ 5,
    get := fun t => UpdateMetadataRequest.BrokerEpoch t, set := fun t x => UpdateMetadataRequest_with_BrokerEpoch t x }
theorem UpdateMetadataRequest.gateBrokerEpoch_holds : UpdateMetadataRequest.gateBrokerEpoch.Holds where
  get_set _ _ := rfl
  encode v h t x := by
    change UpdateMetadataRequest.encode v (UpdateMetadataRequest_with_BrokerEpoch t x) = UpdateMetadataRequest.encode v t
    change ¬(v ≥ 5) at h
    simp only [UpdateMetadataRequest.encode, UpdateMetadataRequest_with_BrokerEpoch, onlyIf_neg h]
  size v h t x := by
    change UpdateMetadataRequest.size v (UpdateMetadataRequest_with_BrokerEpoch t x) = UpdateMetadataRequest.size v t
    change ¬(v ≥ 5) at h
    simp only [UpdateMetadataRequest.size, UpdateMetadataRequest_with_BrokerEpoch, onlyIf_neg h]
  decode v h := by
    change ¬(v ≥ 5) at h
    refine (?_ : Keeps (fun t : UpdateMetadataRequest => t.BrokerEpoch) (UpdateMetadataRequest.decode v))
    unfold UpdateMetadataRequest.decode
    repeat' first
      | exact Keeps.absent h
      | apply Keeps.andThen
      | exact Keeps.field fun _ _ => rfl
      | exact Keeps.fieldStructs fun _ _ => rfl
      | apply Keeps.onlyIf
  carried v h t t0 t1 := by
    change (UpdateMetadataRequest.seen v t t0).BrokerEpoch = (UpdateMetadataRequest.seen v t t1).BrokerEpoch
    change v ≥ 5 at h
    simp only [UpdateMetadataRequest.seen, if_pos h]

/-- `t.UngroupedPartitionStates = x` -/
def UpdateMetadataRequest_with_UngroupedPartitionStates (t : UpdateMetadataRequest) (x : Slice UpdateMetadataPartitionState6) : UpdateMetadataRequest := { t with UngroupedPartitionStates := x }
/-- `UpdateMetadataRequest.UngroupedPartitionStates` -/
def UpdateMetadataRequest.gateUngroupedPartitionStates : Gate :=
  { M := UpdateMetadataRequest.type, L := UpdateMetadataRequest.layout, field := "UngroupedPartitionStates", α := Slice UpdateMetadataPartitionState6, present := fun v => v ≥ 0 ∧ v ≤ 4,
    get := fun t => UpdateMetadataRequest.UngroupedPartitionStates t, set := fun t x => UpdateMetadataRequest_with_UngroupedPartitionStates t x }
theorem UpdateMetadataRequest.gateUngroupedPartitionStates_holds : UpdateMetadataRequest.gateUngroupedPartitionStates.Holds where
  get_set _ _ := rfl
  encode v h t x := by
    change UpdateMetadataRequest.encode v (UpdateMetadataRequest_with_UngroupedPartitionStates t x) = UpdateMetadataRequest.encode v t
    change ¬(v ≥ 0 ∧ v ≤ 4) at h
    simp only [UpdateMetadataRequest.encode, UpdateMetadataRequest_with_UngroupedPartitionStates, onlyIf_neg h]
  size v h t x := by
    change UpdateMetadataRequest.size v (UpdateMetadataRequest_with_UngroupedPartitionStates t x) = UpdateMetadataRequest.size v t
    change ¬(v ≥ 0 ∧ v ≤ 4) at h
    simp only [UpdateMetadataRequest.size, UpdateMetadataRequest_with_UngroupedPartitionStates, onlyIf_neg h]
  decode v h := by
    change ¬(v ≥ 0 ∧ v ≤ 4) at h
    refine (?_ : Keeps (fun t : UpdateMetadataRequest => t.UngroupedPartitionStates) (UpdateMetadataRequest.decode v))
    unfold UpdateMetadataRequest.decode
    repeat' first
      | exact Keeps.absent h
      | apply Keeps.andThen
      | exact Keeps.field fun _ _ => rfl
      | exact Keeps.fieldStructs fun _ _ => rfl
      | apply Keeps.onlyIf
  carried v h t t0 t1 := by
    change (UpdateMetadataRequest.seen v t t0).UngroupedPartitionStates = (UpdateMetadataRequest.seen v t t1).UngroupedPartitionStates
    change v ≥ 0 ∧ v ≤ 4 at h
    simp only [UpdateMetadataRequest.seen, if_pos h]

/-- `t.TopicStates = x` -/
def UpdateMetadataRequest_with_TopicStates (t : UpdateMetadataRequest) (x : Slice UpdateMetadataTopicState6) : UpdateMetadataRequest := { t with TopicStates := x }
/-- `UpdateMetadataRequest.TopicStates` -/
def UpdateMetadataRequest.gateTopicStates : Gate :=
  { M := UpdateMetadataRequest.type, L := UpdateMetadataRequest.layout, field := "TopicStates", α := Slice UpdateMetadataTopicState6, present := fun v => v ≥ 5,
    get := fun t => UpdateMetadataRequest.TopicStates t, set := fun t x => UpdateMetadataRequest_with_TopicStates t x }
theorem UpdateMetadataRequest.gateTopicStates_holds : UpdateMetadataRequest.gateTopicStates.Holds where
  get_set _ _ := rfl
  encode v h t x := by
    change UpdateMetadataRequest.encode v (UpdateMetadataRequest_with_TopicStates t x) = UpdateMetadataRequest.encode v t
    change ¬(v ≥ 5) at h
    simp only [UpdateMetadataRequest.encode, UpdateMetadataRequest_with_TopicStates, onlyIf_neg h]
  size v h t x := by
    change UpdateMetadataRequest.size v (UpdateMetadataRequest_with_TopicStates t x) = UpdateMetadataRequest.size v t
    change ¬(v ≥ 5) at h
    simp only [UpdateMetadataRequest.size, UpdateMetadataRequest_with_TopicStates, onlyIf_neg h]
  decode v h := by
    change ¬(v ≥ 5) at h
    refine (?_ : Keeps (fun t : UpdateMetadataRequest => t.TopicStates) (UpdateMetadataRequest.decode v))
    unfold UpdateMetadataRequest.decode
    repeat' first
      | exact Keeps.absent h
      | apply Keeps.andThen
      | exact Keeps.field fun _ _ => rfl
      | exact Keeps.fieldStructs fun _ _ => rfl
      | apply Keeps.onlyIf
  carried v h t t0 t1 := by
    change (UpdateMetadataRequest.seen v t t0).TopicStates = (UpdateMetadataRequest.seen v t t1).TopicStates
    change v ≥ 5 at h
    simp only [UpdateMetadataRequest.seen, if_pos h]

/-- `t.TopicName = x` -/
def UpdateMetadataTopicState6_with_TopicName (t : UpdateMetadataTopicState6) (x : GoString) : UpdateMetadataTopicState6 := { t with TopicName := x }
/-- `UpdateMetadataTopicState6.TopicName` -/
def UpdateMetadataTopicState6.gateTopicName : Gate :=
  { M := UpdateMetadataTopicState6.type, L := UpdateMetadataTopicState6.layout, field := "TopicName", α := GoString, present := fun v => v ≥ 5,
    get := fun t => UpdateMetadataTopicState6.TopicName t, set := fun t x => UpdateMetadataTopicState6_with_TopicName t x }
theorem UpdateMetadataTopicState6.gateTopicName_holds : UpdateMetadataTopicState6.gateTopicName.Holds where
  get_set _ _ := rfl
  encode v h t x := by
    change UpdateMetadataTopicState6.encode v (UpdateMetadataTopicState6_with_TopicName t x) = UpdateMetadataTopicState6.encode v t
    change ¬(v ≥ 5) at h
    simp only [UpdateMetadataTopicState6.encode, UpdateMetadataTopicState6_with_TopicName, onlyIf_neg h]
  size v h t x := by
    change UpdateMetadataTopicState6.size v (UpdateMetadataTopicState6_with_TopicName t x) = UpdateMetadataTopicState6.size v t
    change ¬(v ≥ 5) at h
    simp only [UpdateMetadataTopicState6.size, UpdateMetadataTopicState6_with_TopicName, onlyIf_neg h]
  decode v h := by
    change ¬(v ≥ 5) at h
    refine (?_ : Keeps (fun t : UpdateMetadataTopicState6 => t.TopicName) (UpdateMetadataTopicState6.decode v))
    unfold UpdateMetadataTopicState6.decode
    repeat' first
      | exact Keeps.absent h
      | apply Keeps.andThen
      | exact Keeps.field fun _ _ => rfl
      | exact Keeps.fieldStructs fun _ _ => rfl
      | apply Keeps.onlyIf
  carried v h t t0 t1 := by
    change (UpdateMetadataTopicState6.seen v t t0).TopicName = (UpdateMetadataTopicState6.seen v t t1).TopicName
    change v ≥ 5 at h
    simp only [UpdateMetadataTopicState6.seen, if_pos h]

/-- `t.PartitionStates = x` -/
def UpdateMetadataTopicState6_with_PartitionStates (t : UpdateMetadataTopicState6) (x : Slice UpdateMetadataPartitionState6) : UpdateMetadataTopicState6 := { t with PartitionStates := x }
/-- `UpdateMetadataTopicState6.PartitionStates` -/
def UpdateMetadataTopicState6.gatePartitionStates : Gate :=
  { M := UpdateMetadataTopicState6.type, L := UpdateMetadataTopicState6.layout, field := "PartitionStates", α := Slice UpdateMetadataPartitionState6, present := fun v => v ≥ 5,
    get := fun t => UpdateMetadataTopicState6.PartitionStates t, set := fun t x => UpdateMetadataTopicState6_with_PartitionStates t x }
theorem UpdateMetadataTopicState6.gatePartitionStates_holds : UpdateMetadataTopicState6.gatePartitionStates.Holds where
  get_set _ _ := rfl
  encode v h t x := by
    change UpdateMetadataTopicState6.encode v (UpdateMetadataTopicState6_with_PartitionStates t x) = UpdateMetadataTopicState6.encode v t
    change ¬(v ≥ 5) at h
    simp only [UpdateMetadataTopicState6.encode, UpdateMetadataTopicState6_with_PartitionStates, onlyIf_neg h]
  size v h t x := by
    change UpdateMetadataTopicState6.size v (UpdateMetadataTopicState6_with_PartitionStates t x) = UpdateMetadataTopicState6.size v t
    change ¬(v ≥ 5) at h
    simp only [UpdateMetadataTopicState6.size, UpdateMetadataTopicState6_with_PartitionStates, onlyIf_neg h]
  decode v h := by
    change ¬(v ≥ 5) at h
    refine (?_ : Keeps (fun t : UpdateMetadataTopicState6 => t.PartitionStates) (UpdateMetadataTopicState6.decode v))
    unfold UpdateMetadataTopicState6.decode
    repeat' first
      | exact Keeps.absent h
      | apply Keeps.andThen
      | exact Keeps.field fun _ _ => rfl
      | exact Keeps.fieldStructs fun _ _ => rfl
      | apply Keeps.onlyIf
  carried v h t t0 t1 := by
    change (UpdateMetadataTopicState6.seen v t t0).PartitionStates = (UpdateMetadataTopicState6.seen v t t1).PartitionStates
    change v ≥ 5 at h
    simp only [UpdateMetadataTopicState6.seen, if_pos h]

/-- `t.V0Host = x` -/
def UpdateMetadataBroker6_with_V0Host (t : UpdateMetadataBroker6) (x : GoString) : UpdateMetadataBroker6 := { t with V0Host := x }
/-- `UpdateMetadataBroker6.V0Host` -/
def UpdateMetadataBroker6.gateV0Host : Gate :=
  { M := UpdateMetadataBroker6.type, L := UpdateMetadataBroker6.layout, field := "V0Host", α := GoString, present := fun v => v ≥ 0 ∧ v ≤ 0,
    get := fun t => UpdateMetadataBroker6.V0Host t, set := fun t x => UpdateMetadataBroker6_with_V0Host t x }
theorem UpdateMetadataBroker6.gateV0Host_holds : UpdateMetadataBroker6.gateV0Host.Holds where
  get_set _ _ := rfl
  encode v h t x := by
    change UpdateMetadataBroker6.encode v (UpdateMetadataBroker6_with_V0Host t x) = UpdateMetadataBroker6.encode v t
    change ¬(v ≥ 0 ∧ v ≤ 0) at h
    simp only [UpdateMetadataBroker6.encode, UpdateMetadataBroker6_with_V0Host, onlyIf_neg h]
  size v h t x := by
    change UpdateMetadataBroker6.size v (UpdateMetadataBroker6_with_V0Host t x) = UpdateMetadataBroker6.size v t
    change ¬(v ≥ 0 ∧ v ≤ 0) at h
    simp only [UpdateMetadataBroker6.size, UpdateMetadataBroker6_with_V0Host, onlyIf_neg h]
  decode v h := by
    change ¬(v ≥ 0 ∧ v ≤ 0) at h
    refine (?_ : Keeps (fun t : UpdateMetadataBroker6 => t.V0Host) (UpdateMetadataBroker6.decode v))
    unfold UpdateMetadataBroker6.decode
    repeat' first
      | exact Keeps.absent h
      | apply Keeps.andThen
      | exact Keeps.field fun _ _ => rfl
      | exact Keeps.fieldStructs fun _ _ => rfl
      | apply Keeps.onlyIf
  carried v h t t0 t1 := by
    change (UpdateMetadataBroker6.seen v t t0).V0Host = (UpdateMetadataBroker6.seen v t t1).V0Host
    change v ≥ 0 ∧ v ≤ 0 at h
    simp only [UpdateMetadataBroker6.seen, if_pos h]

/-- `t.V0Port = x` -/
def UpdateMetadataBroker6_with_V0Port (t : UpdateMetadataBroker6) (x : Int32) : UpdateMetadataBroker6 := { t with V0Port := x }
/-- `UpdateMetadataBroker6.V0Port` -/
def UpdateMetadataBroker6.gateV0Port : Gate :=
  { M := UpdateMetadataBroker6.type, L := UpdateMetadataBroker6.layout, field := "V0Port", α := Int32, present := fun v => v ≥ 0 ∧ v ≤ 0,
    get := fun t => UpdateMetadataBroker6.V0Port t, set := fun t x => UpdateMetadataBroker6_with_V0Port t x }
theorem UpdateMetadataBroker6.gateV0Port_holds : UpdateMetadataBroker6.gateV0Port.Holds where
  get_set _ _ := rfl
  encode v h t x := by
    change UpdateMetadataBroker6.encode v (UpdateMetadataBroker6_with_V0Port t x) = UpdateMetadataBroker6.encode v t
    change ¬(v ≥ 0 ∧ v ≤ 0) at h
    simp only [UpdateMetadataBroker6.encode, UpdateMetadataBroker6_with_V0Port, onlyIf_neg h]
  size v h t x := by
    change UpdateMetadataBroker6.size v (UpdateMetadataBroker6_with_V0Port t x) = UpdateMetadataBroker6.size v t
    change ¬(v ≥ 0 ∧ v ≤ 0) at h
    simp only [UpdateMetadataBroker6.size, UpdateMetadataBroker6_with_V0Port, onlyIf_neg h]
  decode v h := by
    change ¬(v ≥ 0 ∧ v ≤ 0) at h
    refine (?_ : Keeps (fun t : UpdateMetadataBroker6 => t.V0Port) (UpdateMetadataBroker6.decode v))
    unfold UpdateMetadataBroker6.decode
    repeat' first
      | exact Keeps.absent h
      | apply Keeps.andThen
      | exact Keeps.field fun _ _ => rfl
      | exact Keeps.fieldStructs fun _ _ => rfl
      | apply Keeps.onlyIf
  carried v h t t0 t1 := by
    change (UpdateMetadataBroker6.seen v t t0).V0Port = (UpdateMetadataBroker6.seen v t t1).V0Port
    change v ≥ 0 ∧ v ≤ 0 at h
    simp only [UpdateMetadataBroker6.seen, if_pos h]

/-- `t.Endpoints = x` -/
def UpdateMetadataBroker6_with_Endpoints (t : UpdateMetadataBroker6) (x : Slice UpdateMetadataEndpoint6) : UpdateMetadataBroker6 := { t with Endpoints := x }
/-- `UpdateMetadataBroker6.Endpoints` -/
def UpdateMetadataBroker6.gateEndpoints : Gate :=
  { M := UpdateMetadataBroker6.type, L := UpdateMetadataBroker6.layout, field := "Endpoints", α := Slice UpdateMetadataEndpoint6, present := fun v => v ≥ 1,
    get := fun t => UpdateMetadataBroker6.Endpoints t, set := fun t x => UpdateMetadataBroker6_with_Endpoints t x }
theorem UpdateMetadataBroker6.gateEndpoints_holds : UpdateMetadataBroker6.gateEndpoints.Holds where
  get_set _ _ := rfl
  encode v h t x := by
    change UpdateMetadataBroker6.encode v (UpdateMetadataBroker6_with_Endpoints t x) = UpdateMetadataBroker6.encode v t
    change ¬(v ≥ 1) at h
    simp only [UpdateMetadataBroker6.encode, UpdateMetadataBroker6_with_Endpoints, onlyIf_neg h]
  size v h t x := by
    change UpdateMetadataBroker6.size v (UpdateMetadataBroker6_with_Endpoints t x) = UpdateMetadataBroker6.size v t
    change ¬(v ≥ 1) at h
    simp only [UpdateMetadataBroker6.size, UpdateMetadataBroker6_with_Endpoints, onlyIf_neg h]
  decode v h := by
    change ¬(v ≥ 1) at h
    refine (?_ : Keeps (fun t : UpdateMetadataBroker6 => t.Endpoints) (UpdateMetadataBroker6.decode v))
    unfold UpdateMetadataBroker6.decode
    repeat' first
      | exact Keeps.absent h
      | apply Keeps.andThen
      | exact Keeps.field fun _ _ => rfl
      | exact Keeps.fieldStructs fun _ _ => rfl
      | apply Keeps.onlyIf
  carried v h t t0 t1 := by
    change (UpdateMetadataBroker6.seen v t t0).Endpoints = (UpdateMetadataBroker6.seen v t t1).Endpoints
    change v ≥ 1 at h
    simp only [UpdateMetadataBroker6.seen, if_pos h]

/-- `t.Rack = x` -/
def UpdateMetadataBroker6_with_Rack (t : UpdateMetadataBroker6) (x : GoString) : UpdateMetadataBroker6 := { t with Rack := x }
/-- `UpdateMetadataBroker6.Rack` -/
def UpdateMetadataBroker6.gateRack : Gate :=
  { M := UpdateMetadataBroker6.type, L := UpdateMetadataBroker6.layout, field := "Rack", α := GoString, present := fun v => v ≥ 2,
    get := fun t => UpdateMetadataBroker6.Rack t, set := fun t x => UpdateMetadataBroker6_with_Rack t x }
theorem UpdateMetadataBroker6.gateRack_holds : UpdateMetadataBroker6.gateRack.Holds where
  get_set _ _ := rfl
  encode v h t x := by
    change UpdateMetadataBroker6.encode v (UpdateMetadataBroker6_with_Rack t x) = UpdateMetadataBroker6.encode v t
    change ¬(v ≥ 2) at h
    simp only [UpdateMetadataBroker6.encode, UpdateMetadataBroker6_with_Rack, onlyIf_neg h]
  size v h t x := by
    change UpdateMetadataBroker6.size v (UpdateMetadataBroker6_with_Rack t x) = UpdateMetadataBroker6.size v t
    change ¬(v ≥ 2) at h
    simp only [UpdateMetadataBroker6.size, UpdateMetadataBroker6_with_Rack, onlyIf_neg h]
  decode v h := by
    change ¬(v ≥ 2) at h
    refine (?_ : Keeps (fun t : UpdateMetadataBroker6 => t.Rack) (UpdateMetadataBroker6.decode v))
    unfold UpdateMetadataBroker6.decode
    repeat' first
      | exact Keeps.absent h
      | apply Keeps.andThen
      | exact Keeps.field fun _ _ => rfl
      | exact Keeps.fieldStructs fun _ _ => rfl
      | apply Keeps.onlyIf
  carried v h t t0 t1 := by
    change (UpdateMetadataBroker6.seen v t t0).Rack = (UpdateMetadataBroker6.seen v t t1).Rack
    change v ≥ 2 at h
    simp only [UpdateMetadataBroker6.seen, if_pos h]

/-- `t.Port = x` -/
def UpdateMetadataEndpoint6_with_Port (t : UpdateMetadataEndpoint6) (x : Int32) : UpdateMetadataEndpoint6 := { t with Port := x }
/-- `UpdateMetadataEndpoint6.Port` -/
def UpdateMetadataEndpoint6.gatePort : Gate :=
  { M := UpdateMetadataEndpoint6.type, L := UpdateMetadataEndpoint6.layout, field := "Port", α := Int32, present := fun v => v ≥ 1,
    get := fun t => UpdateMetadataEndpoint6.Port t, set := fun t x => UpdateMetadataEndpoint6_with_Port t x }
theorem UpdateMetadataEndpoint6.gatePort_holds : UpdateMetadataEndpoint6.gatePort.Holds where
  get_set _ _ := rfl
  encode v h t x := by
    change UpdateMetadataEndpoint6.encode v (UpdateMetadataEndpoint6_with_Port t x) = UpdateMetadataEndpoint6.encode v t
    change ¬(v ≥ 1) at h
    simp only [UpdateMetadataEndpoint6.encode, UpdateMetadataEndpoint6_with_Port, onlyIf_neg h]
  size v h t x := by
    change UpdateMetadataEndpoint6.size v (UpdateMetadataEndpoint6_with_Port t x) = UpdateMetadataEndpoint6.size v t
    change ¬(v ≥ 1) at h
    simp only [UpdateMetadataEndpoint6.size, UpdateMetadataEndpoint6_with_Port, onlyIf_neg h]
  decode v h := by
    change ¬(v ≥ 1) at h
    refine (?_ : Keeps (fun t : UpdateMetadataEndpoint6 => t.Port) (UpdateMetadataEndpoint6.decode v))
    unfold UpdateMetadataEndpoint6.decode
    repeat' first
      | exact Keeps.absent h
      | apply Keeps.andThen
      | exact Keeps.field fun _ _ => rfl
      | exact Keeps.fieldStructs fun _ _ => rfl
      | apply Keeps.onlyIf
  carried v h t t0 t1 := by
    change (UpdateMetadataEndpoint6.seen v t t0).Port = (UpdateMetadataEndpoint6.seen v t t1).Port
    change v ≥ 1 at h
    simp only [UpdateMetadataEndpoint6.seen, if_pos h]

/-- `t.Host = x` -/
def UpdateMetadataEndpoint6_with_Host (t : UpdateMetadataEndpoint6) (x : GoString) : UpdateMetadataEndpoint6 := { t with Host := x }
/-- `UpdateMetadataEndpoint6.Host` -/
def UpdateMetadataEndpoint6.gateHost : Gate :=
  { M := UpdateMetadataEndpoint6.type, L := UpdateMetadataEndpoint6.layout, field := "Host", α := GoString, present := fun v => v ≥ 1,
    get := fun t => UpdateMetadataEndpoint6.Host t, set := fun t x => UpdateMetadataEndpoint6_with_Host t x }
theorem UpdateMetadataEndpoint6.gateHost_holds : UpdateMetadataEndpoint6.gateHost.Holds where
  get_set _ _ := rfl
  encode v h t x := by
    change UpdateMetadataEndpoint6.encode v (UpdateMetadataEndpoint6_with_Host t x) = UpdateMetadataEndpoint6.encode v t
    change ¬(v ≥ 1) at h
    simp only [UpdateMetadataEndpoint6.encode, UpdateMetadataEndpoint6_with_Host, onlyIf_neg h]
  size v h t x := by
    change UpdateMetadataEndpoint6.size v (UpdateMetadataEndpoint6_with_Host t x) = UpdateMetadataEndpoint6.size v t
    change ¬(v ≥ 1) at h
    simp only [UpdateMetadataEndpoint6.size, UpdateMetadataEndpoint6_with_Host, onlyIf_neg h]
  decode v h := by
    change ¬(v ≥ 1) at h
    refine (?_ : Keeps (fun t : UpdateMetadataEndpoint6 => t.Host) (UpdateMetadataEndpoint6.decode v))
    unfold UpdateMetadataEndpoint6.decode
    repeat' first
      | exact Keeps.absent h
      | apply Keeps.andThen
      | exact Keeps.field fun _ _ => rfl
      | exact Keeps.fieldStructs fun _ _ => rfl
      | apply Keeps.onlyIf
  carried v h t t0 t1 := by
    change (UpdateMetadataEndpoint6.seen v t t0).Host = (UpdateMetadataEndpoint6.seen v t t1).Host
    change v ≥ 1 at h
    simp only [UpdateMetadataEndpoint6.seen, if_pos h]

/-- `t.Listener = x` -/
def UpdateMetadataEndpoint6_with_Listener (t : UpdateMetadataEndpoint6) (x : GoString) : UpdateMetadataEndpoint6 := { t with Listener := x }
/-- `UpdateMetadataEndpoint6.Listener` -/
def UpdateMetadataEndpoint6.gateListener : Gate :=
  { M := UpdateMetadataEndpoint6.type, L := UpdateMetadataEndpoint6.layout, field := "Listener", α := GoString, present := fun v => v ≥ 3,
    get := fun t => UpdateMetadataEndpoint6.Listener t, set := fun t x => UpdateMetadataEndpoint6_with_Listener t x }
theorem UpdateMetadataEndpoint6.gateListener_holds : UpdateMetadataEndpoint6.gateListener.Holds where
  get_set _ _ := rfl
  encode v h t x := by
    change UpdateMetadataEndpoint6.encode v (UpdateMetadataEndpoint6_with_Listener t x) = UpdateMetadataEndpoint6.encode v t
    change ¬(v ≥ 3) at h
    simp only [UpdateMetadataEndpoint6.encode, UpdateMetadataEndpoint6_with_Listener, onlyIf_neg h]
  size v h t x := by
    change UpdateMetadataEndpoint6.size v (UpdateMetadataEndpoint6_with_Listener t x) = UpdateMetadataEndpoint6.size v t
    change ¬(v ≥ 3) at h
    simp only [UpdateMetadataEndpoint6.size, UpdateMetadataEndpoint6_with_Listener, onlyIf_neg h]
  decode v h := by
    change ¬(v ≥ 3) at h
    refine (?_ : Keeps (fun t : UpdateMetadataEndpoint6 => t.Listener) (UpdateMetadataEndpoint6.decode v))
    unfold UpdateMetadataEndpoint6.decode
    repeat' first
      | exact Keeps.absent h
      | apply Keeps.andThen
      | exact Keeps.field fun _ _ => rfl
      | exact Keeps.fieldStructs fun _ _ => rfl
      | apply Keeps.onlyIf
  carried v h t t0 t1 := by
    change (UpdateMetadataEndpoint6.seen v t t0).Listener = (UpdateMetadataEndpoint6.seen v t t1).Listener
    change v ≥ 3 at h
    simp only [UpdateMetadataEndpoint6.seen, if_pos h]

/-- `t.SecurityProtocol = x` -/
def UpdateMetadataEndpoint6_with_SecurityProtocol (t : UpdateMetadataEndpoint6) (x : Int16) : UpdateMetadataEndpoint6 := { t with SecurityProtocol := x }
/-- `UpdateMetadataEndpoint6.SecurityProtocol` -/
def UpdateMetadataEndpoint6.gateSecurityProtocol : Gate :=
  { M := UpdateMetadataEndpoint6.type, L := UpdateMetadataEndpoint6.layout, field := "SecurityProtocol", α := Int16, present := fun v => v ≥ 1,
    get := fun t => UpdateMetadataEndpoint6.SecurityProtocol t, set := fun t x => UpdateMetadataEndpoint6_with_SecurityProtocol t x }
theorem UpdateMetadataEndpoint6.gateSecurityProtocol_holds : UpdateMetadataEndpoint6.gateSecurityProtocol.Holds where
  get_set _ _ := rfl
  encode v h t x := by
    change UpdateMetadataEndpoint6.encode v (UpdateMetadataEndpoint6_with_SecurityProtocol t x) = UpdateMetadataEndpoint6.encode v t
    change ¬(v ≥ 1) at h
    simp only [UpdateMetadataEndpoint6.encode, UpdateMetadataEndpoint6_with_SecurityProtocol, onlyIf_neg h]
  size v h t x := by
    change UpdateMetadataEndpoint6.size v (UpdateMetadataEndpoint6_with_SecurityProtocol t x) = UpdateMetadataEndpoint6.size v t
    change ¬(v ≥ 1) at h
    simp only [UpdateMetadataEndpoint6.size, UpdateMetadataEndpoint6_with_SecurityProtocol, onlyIf_neg h]
  decode v h := by
    change ¬(v ≥ 1) at h
    refine (?_ : Keeps (fun t : UpdateMetadataEndpoint6 => t.SecurityProtocol) (UpdateMetadataEndpoint6.decode v))
    unfold UpdateMetadataEndpoint6.decode
    repeat' first
      | exact Keeps.absent h
      | apply Keeps.andThen
      | exact Keeps.field fun _ _ => rfl
      | exact Keeps.fieldStructs fun _ _ => rfl
      | apply Keeps.onlyIf
  carried v h t t0 t1 := by
    change (UpdateMetadataEndpoint6.seen v t t0).SecurityProtocol = (UpdateMetadataEndpoint6.seen v t t1).SecurityProtocol
    change v ≥ 1 at h
    simp only [UpdateMetadataEndpoint6.seen, if_pos h]

/-- `t.TopicName = x` -/
def UpdateMetadataPartitionState6_with_TopicName (t : UpdateMetadataPartitionState6) (x : GoString) : UpdateMetadataPartitionState6 := { t with TopicName := x }
/-- `UpdateMetadataPartitionState6.TopicName` -/
def UpdateMetadataPartitionState6.gateTopicName : Gate :=
  { M := UpdateMetadataPartitionState6.type, L := UpdateMetadataPartitionState6.layout, field := "TopicName", α := GoString, present := fun v => v ≥ 0 ∧ v ≤ 4,
    get := fun t => UpdateMetadataPartitionState6.TopicName t, set := fun t x => UpdateMetadataPartitionState6_with_TopicName t x }
theorem UpdateMetadataPartitionState6.gateTopicName_holds : UpdateMetadataPartitionState6.gateTopicName.Holds where
  get_set _ _ := rfl
  encode v h t x := by
    change UpdateMetadataPartitionState6.encode v (UpdateMetadataPartitionState6_with_TopicName t x) = UpdateMetadataPartitionState6.encode v t
    change ¬(v ≥ 0 ∧ v ≤ 4) at h
    simp only [UpdateMetadataPartitionState6.encode, UpdateMetadataPartitionState6_with_TopicName, onlyIf_neg h]
  size v h t x := by
    change UpdateMetadataPartitionState6.size v (UpdateMetadataPartitionState6_with_TopicName t x) = UpdateMetadataPartitionState6.size v t
    change ¬(v ≥ 0 ∧ v ≤ 4) at h
    simp only [UpdateMetadataPartitionState6.size, UpdateMetadataPartitionState6_with_TopicName, onlyIf_neg h]
  decode v h := by
    change ¬(v ≥ 0 ∧ v ≤ 4) at h
    refine (?_ : Keeps (fun t : UpdateMetadataPartitionState6 => t.TopicName) (UpdateMetadataPartitionState6.decode v))
    unfold UpdateMetadataPartitionState6.decode
    repeat' first
      | exact Keeps.absent h
      | apply Keeps.andThen
      | exact Keeps.field fun _ _ => rfl
      | exact Keeps.fieldStructs fun _ _ => rfl
      | apply Keeps.onlyIf
  carried v h t t0 t1 := by
    change (UpdateMetadataPartitionState6.seen v t t0).TopicName = (UpdateMetadataPartitionState6.seen v t t1).TopicName
    change v ≥ 0 ∧ v ≤ 4 at h
    simp only [UpdateMetadataPartitionState6.seen, if_pos h]

/-- `t.OfflineReplicas = x` -/
def UpdateMetadataPartitionState6_with_OfflineReplicas (t : UpdateMetadataPartitionState6) (x : Slice Int32) : UpdateMetadataPartitionState6 := { t with OfflineReplicas := x }
/-- `UpdateMetadataPartitionState6.OfflineReplicas` -/
def UpdateMetadataPartitionState6.gateOfflineReplicas : Gate :=
  { M := UpdateMetadataPartitionState6.type, L := UpdateMetadataPartitionState6.layout, field := "OfflineReplicas", α := Slice Int32, present := fun v => v ≥ 4,
    get := fun t => UpdateMetadataPartitionState6.OfflineReplicas t, set := fun t x => UpdateMetadataPartitionState6_with_OfflineReplicas t x }
theorem UpdateMetadataPartitionState6.gateOfflineReplicas_holds : UpdateMetadataPartitionState6.gateOfflineReplicas.Holds where
  get_set _ _ := rfl
  encode v h t x := by
    change UpdateMetadataPartitionState6.encode v (UpdateMetadataPartitionState6_with_OfflineReplicas t x) = UpdateMetadataPartitionState6.encode v t
    change ¬(v ≥ 4) at h
    simp only [UpdateMetadataPartitionState6.encode, UpdateMetadataPartitionState6_with_OfflineReplicas, onlyIf_neg h]
  size v h t x := by
    change UpdateMetadataPartitionState6.size v (UpdateMetadataPartitionState6_with_OfflineReplicas t x) = UpdateMetadataPartitionState6.size v t
    change ¬(v ≥ 4) at h
    simp only [UpdateMetadataPartitionState6.size, UpdateMetadataPartitionState6_with_OfflineReplicas, onlyIf_neg h]
  decode v h := by
    change ¬(v ≥ 4) at h
    refine (?_ : Keeps (fun t : UpdateMetadataPartitionState6 => t.OfflineReplicas) (UpdateMetadataPartitionState6.decode v))
    unfold UpdateMetadataPartitionState6.decode
    repeat' first
      | exact Keeps.absent h
      | apply Keeps.andThen
      | exact Keeps.field fun _ _ => rfl
      | exact Keeps.fieldStructs fun _ _ => rfl
      | apply Keeps.onlyIf
  carried v h t t0 t1 := by
    change (UpdateMetadataPartitionState6.seen v t t0).OfflineReplicas = (UpdateMetadataPartitionState6.seen v t t1).OfflineReplicas
    change v ≥ 4 at h
    simp only [UpdateMetadataPartitionState6.seen, if_pos h]

/-- The version-dependent fields of the UpdateMetadata messages. -/
def gatesUpdateMetadata : List Gate :=
  [UpdateMetadataRequest.gateBrokerEpoch,
   UpdateMetadataRequest.gateUngroupedPartitionStates,
   UpdateMetadataRequest.gateTopicStates,
   UpdateMetadataTopicState6.gateTopicName,
   UpdateMetadataTopicState6.gatePartitionStates,
   UpdateMetadataBroker6.gateV0Host,
   UpdateMetadataBroker6.gateV0Port,
   UpdateMetadataBroker6.gateEndpoints,
   UpdateMetadataBroker6.gateRack,
   UpdateMetadataEndpoint6.gatePort,
   UpdateMetadataEndpoint6.gateHost,
   UpdateMetadataEndpoint6.gateListener,
   UpdateMetadataEndpoint6.gateSecurityProtocol,
   UpdateMetadataPartitionState6.gateTopicName,
   UpdateMetadataPartitionState6.gateOfflineReplicas]

theorem gatesUpdateMetadata_hold : ∀ g ∈ gatesUpdateMetadata, g.Holds := by
  unfold gatesUpdateMetadata
  simp only [List.forall_mem_cons]
  exact ⟨UpdateMetadataRequest.gateBrokerEpoch_holds,
    UpdateMetadataRequest.gateUngroupedPartitionStates_holds,
    UpdateMetadataRequest.gateTopicStates_holds,
    UpdateMetadataTopicState6.gateTopicName_holds,
    UpdateMetadataTopicState6.gatePartitionStates_holds,
    UpdateMetadataBroker6.gateV0Host_holds,
    UpdateMetadataBroker6.gateV0Port_holds,
    UpdateMetadataBroker6.gateEndpoints_holds,
    UpdateMetadataBroker6.gateRack_holds,
    UpdateMetadataEndpoint6.gatePort_holds,
    UpdateMetadataEndpoint6.gateHost_holds,
    UpdateMetadataEndpoint6.gateListener_holds,
    UpdateMetadataEndpoint6.gateSecurityProtocol_holds,
    UpdateMetadataPartitionState6.gateTopicName_holds,
    UpdateMetadataPartitionState6.gateOfflineReplicas_holds,
    fun _ h => absurd h (by simp)⟩

end Kafka.Msg
