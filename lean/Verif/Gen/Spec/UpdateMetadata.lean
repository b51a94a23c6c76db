import Verif.Message.Layout
import Verif.Gen.Model.UpdateMetadata
/-!
Generated by tools/gen_messages.py: specification of the UpdateMetadata messages.
-/
namespace Kafka.Msg

/-- Wire format of `UpdateMetadataPartitionState6`. -/
def UpdateMetadataPartitionState6.wire (version : Int16) (t : UpdateMetadataPartitionState6) : List Byte :=
  Wire.when (version ≥ 0 ∧ version ≤ 4) (Wire.string t.TopicName) ++
  Wire.int32 t.PartitionIndex ++
  Wire.int32 t.ControllerEpoch ++
  Wire.int32 t.Leader ++
  Wire.int32 t.LeaderEpoch ++
  Wire.int32Array t.Isr ++
  Wire.int32 t.ZkVersion ++
  Wire.int32Array t.Replicas ++
  Wire.when (version ≥ 4) (Wire.int32Array t.OfflineReplicas)

/-- Lengths are representable. -/
structure UpdateMetadataPartitionState6.Fits (version : Int16) (t : UpdateMetadataPartitionState6) : Prop where
  TopicName : version ≥ 0 ∧ version ≤ 4 → FitsString t.TopicName
  Isr : FitsSlice t.Isr
  Replicas : FitsSlice t.Replicas
  OfflineReplicas : version ≥ 4 → FitsSlice t.OfflineReplicas

/-- The value after `t` has been decoded into `t0`. -/
def UpdateMetadataPartitionState6.seen (version : Int16) (t t0 : UpdateMetadataPartitionState6) : UpdateMetadataPartitionState6 :=
  { TopicName := if version ≥ 0 ∧ version ≤ 4 then t.TopicName else t0.TopicName,
    PartitionIndex := t.PartitionIndex,
    ControllerEpoch := t.ControllerEpoch,
    Leader := t.Leader,
    LeaderEpoch := t.LeaderEpoch,
    Isr := t.Isr,
    ZkVersion := t.ZkVersion,
    Replicas := t.Replicas,
    OfflineReplicas := if version ≥ 4 then t.OfflineReplicas else t0.OfflineReplicas }

/-- Nothing in `t` is lost at this version. -/
structure UpdateMetadataPartitionState6.Canon (version : Int16) (t : UpdateMetadataPartitionState6) : Prop where
  TopicName : ¬(version ≥ 0 ∧ version ≤ 4) → t.TopicName = []
  OfflineReplicas : ¬(version ≥ 4) → t.OfflineReplicas = none

/-- The specification of `UpdateMetadataPartitionState6`. -/
def UpdateMetadataPartitionState6.layout : Layout UpdateMetadataPartitionState6.type :=
  { wire := UpdateMetadataPartitionState6.wire, Fits := UpdateMetadataPartitionState6.Fits, seen := UpdateMetadataPartitionState6.seen, Canon := UpdateMetadataPartitionState6.Canon }

/-- Wire format of `UpdateMetadataTopicState6`. -/
def UpdateMetadataTopicState6.wire (version : Int16) (t : UpdateMetadataTopicState6) : List Byte :=
  Wire.when (version ≥ 5) (Wire.string t.TopicName) ++
  Wire.when (version ≥ 5) (Wire.array (UpdateMetadataPartitionState6.wire version) t.PartitionStates)

/-- Lengths are representable. -/
structure UpdateMetadataTopicState6.Fits (version : Int16) (t : UpdateMetadataTopicState6) : Prop where
  TopicName : version ≥ 5 → FitsString t.TopicName
  PartitionStates : version ≥ 5 → FitsAll (UpdateMetadataPartitionState6.Fits version) t.PartitionStates

/-- The value after `t` has been decoded into `t0`. -/
def UpdateMetadataTopicState6.seen (version : Int16) (t t0 : UpdateMetadataTopicState6) : UpdateMetadataTopicState6 :=
  { TopicName := if version ≥ 5 then t.TopicName else t0.TopicName,
    PartitionStates := if version ≥ 5 then some (t.PartitionStates.elems.map fun x => x.seen version {}) else t0.PartitionStates }

/-- Nothing in `t` is lost at this version. -/
structure UpdateMetadataTopicState6.Canon (version : Int16) (t : UpdateMetadataTopicState6) : Prop where
  TopicName : ¬(version ≥ 5) → t.TopicName = []
  PartitionStates : (version ≥ 5 → CanonAll (UpdateMetadataPartitionState6.Canon version) t.PartitionStates) ∧ (¬(version ≥ 5) → t.PartitionStates = none)

/-- The specification of `UpdateMetadataTopicState6`. -/
def UpdateMetadataTopicState6.layout : Layout UpdateMetadataTopicState6.type :=
  { wire := UpdateMetadataTopicState6.wire, Fits := UpdateMetadataTopicState6.Fits, seen := UpdateMetadataTopicState6.seen, Canon := UpdateMetadataTopicState6.Canon }

/-- Wire format of `UpdateMetadataEndpoint6`. -/
def UpdateMetadataEndpoint6.wire (version : Int16) (t : UpdateMetadataEndpoint6) : List Byte :=
  Wire.when (version ≥ 1) (Wire.int32 t.Port) ++
  Wire.when (version ≥ 1) (Wire.string t.Host) ++
  Wire.when (version ≥ 3) (Wire.string t.Listener) ++
  Wire.when (version ≥ 1) (Wire.int16 t.SecurityProtocol)

/-- Lengths are representable. -/
structure UpdateMetadataEndpoint6.Fits (version : Int16) (t : UpdateMetadataEndpoint6) : Prop where
  Host : version ≥ 1 → FitsString t.Host
  Listener : version ≥ 3 → FitsString t.Listener

/-- The value after `t` has been decoded into `t0`. -/
def UpdateMetadataEndpoint6.seen (version : Int16) (t t0 : UpdateMetadataEndpoint6) : UpdateMetadataEndpoint6 :=
  { Port := if version ≥ 1 then t.Port else t0.Port,
    Host := if version ≥ 1 then t.Host else t0.Host,
    Listener := if version ≥ 3 then t.Listener else t0.Listener,
    SecurityProtocol := if version ≥ 1 then t.SecurityProtocol else t0.SecurityProtocol }

/-- Nothing in `t` is lost at this version. -/
structure UpdateMetadataEndpoint6.Canon (version : Int16) (t : UpdateMetadataEndpoint6) : Prop where
  Port : ¬(version ≥ 1) → t.Port = 0
  Host : ¬(version ≥ 1) → t.Host = []
  Listener : ¬(version ≥ 3) → t.Listener = []
  SecurityProtocol : ¬(version ≥ 1) → t.SecurityProtocol = 0

/-- The specification of `UpdateMetadataEndpoint6`. -/
def UpdateMetadataEndpoint6.layout : Layout UpdateMetadataEndpoint6.type :=
  { wire := UpdateMetadataEndpoint6.wire, Fits := UpdateMetadataEndpoint6.Fits, seen := UpdateMetadataEndpoint6.seen, Canon := UpdateMetadataEndpoint6.Canon }

/-- Wire format of `UpdateMetadataBroker6`. -/
def UpdateMetadataBroker6.wire (version : Int16) (t : UpdateMetadataBroker6) : List Byte :=
  Wire.int32 t.Id ++
  Wire.when (version ≥ 0 ∧ version ≤ 0) (Wire.string t.V0Host) ++
  Wire.when (version ≥ 0 ∧ version ≤ 0) (Wire.int32 t.V0Port) ++
  Wire.when (version ≥ 1) (Wire.array (UpdateMetadataEndpoint6.wire version) t.Endpoints) ++
  Wire.when (version ≥ 2) (Wire.string t.Rack)

/-- Lengths are representable. -/
structure UpdateMetadataBroker6.Fits (version : Int16) (t : UpdateMetadataBroker6) : Prop where
  V0Host : version ≥ 0 ∧ version ≤ 0 → FitsString t.V0Host
  Endpoints : version ≥ 1 → FitsAll (UpdateMetadataEndpoint6.Fits version) t.Endpoints
  Rack : version ≥ 2 → FitsString t.Rack

/-- The value after `t` has been decoded into `t0`. -/
def UpdateMetadataBroker6.seen (version : Int16) (t t0 : UpdateMetadataBroker6) : UpdateMetadataBroker6 :=
  { Id := t.Id,
    V0Host := if version ≥ 0 ∧ version ≤ 0 then t.V0Host else t0.V0Host,
    V0Port := if version ≥ 0 ∧ version ≤ 0 then t.V0Port else t0.V0Port,
    Endpoints := if version ≥ 1 then some (t.Endpoints.elems.map fun x => x.seen version {}) else t0.Endpoints,
    Rack := if version ≥ 2 then t.Rack else t0.Rack }

/-- Nothing in `t` is lost at this version. -/
structure UpdateMetadataBroker6.Canon (version : Int16) (t : UpdateMetadataBroker6) : Prop where
  V0Host : ¬(version ≥ 0 ∧ version ≤ 0) → t.V0Host = []
  V0Port : ¬(version ≥ 0 ∧ version ≤ 0) → t.V0Port = 0
  Endpoints : (version ≥ 1 → CanonAll (UpdateMetadataEndpoint6.Canon version) t.Endpoints) ∧ (¬(version ≥ 1) → t.Endpoints = none)
  Rack : ¬(version ≥ 2) → t.Rack = []

/-- The specification of `UpdateMetadataBroker6`. -/
def UpdateMetadataBroker6.layout : Layout UpdateMetadataBroker6.type :=
  { wire := UpdateMetadataBroker6.wire, Fits := UpdateMetadataBroker6.Fits, seen := UpdateMetadataBroker6.seen, Canon := UpdateMetadataBroker6.Canon }

/-- Wire format of `UpdateMetadataRequest`. -/
def UpdateMetadataRequest.wire (version : Int16) (t : UpdateMetadataRequest) : List Byte :=
  Wire.int32 t.ControllerId ++
  Wire.int32 t.ControllerEpoch ++
  Wire.when (version ≥ 5) (Wire.int64 t.BrokerEpoch) ++
  Wire.when (version ≥ 0 ∧ version ≤ 4) (Wire.array (UpdateMetadataPartitionState6.wire version) t.UngroupedPartitionStates) ++
  Wire.when (version ≥ 5) (Wire.array (UpdateMetadataTopicState6.wire version) t.TopicStates) ++
  Wire.array (UpdateMetadataBroker6.wire version) t.LiveBrokers

/-- Lengths are representable. -/
structure UpdateMetadataRequest.Fits (version : Int16) (t : UpdateMetadataRequest) : Prop where
  UngroupedPartitionStates : version ≥ 0 ∧ version ≤ 4 → FitsAll (UpdateMetadataPartitionState6.Fits version) t.UngroupedPartitionStates
  TopicStates : version ≥ 5 → FitsAll (UpdateMetadataTopicState6.Fits version) t.TopicStates
  LiveBrokers : FitsAll (UpdateMetadataBroker6.Fits version) t.LiveBrokers

/-- The value after `t` has been decoded into `t0`. -/
def UpdateMetadataRequest.seen (version : Int16) (t t0 : UpdateMetadataRequest) : UpdateMetadataRequest :=
  { ControllerId := t.ControllerId,
    ControllerEpoch := t.ControllerEpoch,
    BrokerEpoch := if version ≥ 5 then t.BrokerEpoch else t0.BrokerEpoch,
    UngroupedPartitionStates := if version ≥ 0 ∧ version ≤ 4 then some (t.UngroupedPartitionStates.elems.map fun x => x.seen version {}) else t0.UngroupedPartitionStates,
    TopicStates := if version ≥ 5 then some (t.TopicStates.elems.map fun x => x.seen version {}) else t0.TopicStates,
    LiveBrokers := some (t.LiveBrokers.elems.map fun x => x.seen version {}) }

/-- Nothing in `t` is lost at this version. -/
structure UpdateMetadataRequest.Canon (version : Int16) (t : UpdateMetadataRequest) : Prop where
  BrokerEpoch : ¬(version ≥ 5) → t.BrokerEpoch = 0
  UngroupedPartitionStates : (version ≥ 0 ∧ version ≤ 4 → CanonAll (UpdateMetadataPartitionState6.Canon version) t.UngroupedPartitionStates) ∧ (¬(version ≥ 0 ∧ version ≤ 4) → t.UngroupedPartitionStates = none)
  TopicStates : (version ≥ 5 → CanonAll (UpdateMetadataTopicState6.Canon version) t.TopicStates) ∧ (¬(version ≥ 5) → t.TopicStates = none)
  LiveBrokers : CanonAll (UpdateMetadataBroker6.Canon version) t.LiveBrokers

/-- The specification of `UpdateMetadataRequest`. -/
def UpdateMetadataRequest.layout : Layout UpdateMetadataRequest.type :=
  { wire := UpdateMetadataRequest.wire, Fits := UpdateMetadataRequest.Fits, seen := UpdateMetadataRequest.seen, Canon := UpdateMetadataRequest.Canon }

/-- Wire format of `UpdateMetadataResponse`. -/
def UpdateMetadataResponse.wire (_version : Int16) (t : UpdateMetadataResponse) : List Byte :=
  Wire.int16 t.ErrorCode

/-- No field has a length prefix. -/
def UpdateMetadataResponse.Fits (_version : Int16) (_t : UpdateMetadataResponse) : Prop := True

/-- The value after `t` has been decoded into `t0`. -/
def UpdateMetadataResponse.seen (_version : Int16) (t _t0 : UpdateMetadataResponse) : UpdateMetadataResponse :=
  { ErrorCode := t.ErrorCode }

/-- Nothing can be lost. -/
def UpdateMetadataResponse.Canon (_version : Int16) (_t : UpdateMetadataResponse) : Prop := True

/-- The specification of `UpdateMetadataResponse`. -/
def UpdateMetadataResponse.layout : Layout UpdateMetadataResponse.type :=
  { wire := UpdateMetadataResponse.wire, Fits := UpdateMetadataResponse.Fits, seen := UpdateMetadataResponse.seen, Canon := UpdateMetadataResponse.Canon }

end Kafka.Msg
