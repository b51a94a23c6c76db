import Verif.Message.Layout
import Verif.Gen.Model.LeaderAndIsr
/-!
Generated by tools/gen_messages.py: specification of the LeaderAndIsr messages.
-/
namespace Kafka.Msg

/-- Wire format of `LeaderAndIsrPartitionState4`. -/
def LeaderAndIsrPartitionState4.wire (version : Int16) (t : LeaderAndIsrPartitionState4) : List Byte :=
  Wire.when (version ≥ 0 ∧ version ≤ 1) (Wire.string t.TopicName) ++
  Wire.int32 t.PartitionIndex ++
  Wire.int32 t.ControllerEpoch ++
  Wire.int32 t.Leader ++
  Wire.int32 t.LeaderEpoch ++
  Wire.int32Array t.Isr ++
  Wire.int32 t.ZkVersion ++
  Wire.int32Array t.Replicas ++
  Wire.when (version ≥ 3) (Wire.int32Array t.AddingReplicas) ++
  Wire.when (version ≥ 3) (Wire.int32Array t.RemovingReplicas) ++
  Wire.when (version ≥ 1) (Wire.bool t.IsNew)

/-- Lengths are representable. -/
structure LeaderAndIsrPartitionState4.Fits (version : Int16) (t : LeaderAndIsrPartitionState4) : Prop where
  TopicName : version ≥ 0 ∧ version ≤ 1 → FitsString t.TopicName
  Isr : FitsSlice t.Isr
  Replicas : FitsSlice t.Replicas
  AddingReplicas : version ≥ 3 → FitsSlice t.AddingReplicas
  RemovingReplicas : version ≥ 3 → FitsSlice t.RemovingReplicas

/-- The value after `t` has been decoded into `t0`. -/
def LeaderAndIsrPartitionState4.seen (version : Int16) (t t0 : LeaderAndIsrPartitionState4) : LeaderAndIsrPartitionState4 :=
  { TopicName := if version ≥ 0 ∧ version ≤ 1 then t.TopicName else t0.TopicName,
    PartitionIndex := t.PartitionIndex,
    ControllerEpoch := t.ControllerEpoch,
    Leader := t.Leader,
    LeaderEpoch := t.LeaderEpoch,
    Isr := t.Isr,
    ZkVersion := t.ZkVersion,
    Replicas := t.Replicas,
    AddingReplicas := if version ≥ 3 then t.AddingReplicas else t0.AddingReplicas,
    RemovingReplicas := if version ≥ 3 then t.RemovingReplicas else t0.RemovingReplicas,
    IsNew := if version ≥ 1 then t.IsNew else t0.IsNew }

/-- Nothing in `t` is lost at this version. -/
structure LeaderAndIsrPartitionState4.Canon (version : Int16) (t : LeaderAndIsrPartitionState4) : Prop where
  TopicName : ¬(version ≥ 0 ∧ version ≤ 1) → t.TopicName = []
  AddingReplicas : ¬(version ≥ 3) → t.AddingReplicas = none
  RemovingReplicas : ¬(version ≥ 3) → t.RemovingReplicas = none
  IsNew : ¬(version ≥ 1) → t.IsNew = false

/-- The specification of `LeaderAndIsrPartitionState4`. -/
def LeaderAndIsrPartitionState4.layout : Layout LeaderAndIsrPartitionState4.type :=
  { wire := LeaderAndIsrPartitionState4.wire, Fits := LeaderAndIsrPartitionState4.Fits, seen := LeaderAndIsrPartitionState4.seen, Canon := LeaderAndIsrPartitionState4.Canon }

/-- Wire format of `LeaderAndIsrTopicState4`. -/
def LeaderAndIsrTopicState4.wire (version : Int16) (t : LeaderAndIsrTopicState4) : List Byte :=
  Wire.when (version ≥ 2) (Wire.string t.TopicName) ++
  Wire.when (version ≥ 2) (Wire.array (LeaderAndIsrPartitionState4.wire version) t.PartitionStates)

/-- Lengths are representable. -/
structure LeaderAndIsrTopicState4.Fits (version : Int16) (t : LeaderAndIsrTopicState4) : Prop where
  TopicName : version ≥ 2 → FitsString t.TopicName
  PartitionStates : version ≥ 2 → FitsAll (LeaderAndIsrPartitionState4.Fits version) t.PartitionStates

/-- The value after `t` has been decoded into `t0`. -/
def LeaderAndIsrTopicState4.seen (version : Int16) (t t0 : LeaderAndIsrTopicState4) : LeaderAndIsrTopicState4 :=
  { TopicName := if version ≥ 2 then t.TopicName else t0.TopicName,
    PartitionStates := if version ≥ 2 then some (t.PartitionStates.elems.map fun x => x.seen version {}) else t0.PartitionStates }

/-- Nothing in `t` is lost at this version. -/
structure LeaderAndIsrTopicState4.Canon (version : Int16) (t : LeaderAndIsrTopicState4) : Prop where
  TopicName : ¬(version ≥ 2) → t.TopicName = []
  PartitionStates : (version ≥ 2 → CanonAll (LeaderAndIsrPartitionState4.Canon version) t.PartitionStates) ∧ (¬(version ≥ 2) → t.PartitionStates = none)

/-- The specification of `LeaderAndIsrTopicState4`. -/
def LeaderAndIsrTopicState4.layout : Layout LeaderAndIsrTopicState4.type :=
  { wire := LeaderAndIsrTopicState4.wire, Fits := LeaderAndIsrTopicState4.Fits, seen := LeaderAndIsrTopicState4.seen, Canon := LeaderAndIsrTopicState4.Canon }

/-- Wire format of `LeaderAndIsrLiveLeader4`. -/
def LeaderAndIsrLiveLeader4.wire (_version : Int16) (t : LeaderAndIsrLiveLeader4) : List Byte :=
  Wire.int32 t.BrokerId ++
  Wire.string t.HostName ++
  Wire.int32 t.Port

/-- Lengths are representable. -/
structure LeaderAndIsrLiveLeader4.Fits (version : Int16) (t : LeaderAndIsrLiveLeader4) : Prop where
  HostName : FitsString t.HostName

/-- The value after `t` has been decoded into `t0`. -/
def LeaderAndIsrLiveLeader4.seen (_version : Int16) (t _t0 : LeaderAndIsrLiveLeader4) : LeaderAndIsrLiveLeader4 :=
  { BrokerId := t.BrokerId,
    HostName := t.HostName,
    Port := t.Port }

/-- Nothing can be lost. -/
def LeaderAndIsrLiveLeader4.Canon (_version : Int16) (_t : LeaderAndIsrLiveLeader4) : Prop := True

/-- The specification of `LeaderAndIsrLiveLeader4`. -/
def LeaderAndIsrLiveLeader4.layout : Layout LeaderAndIsrLiveLeader4.type :=
  { wire := LeaderAndIsrLiveLeader4.wire, Fits := LeaderAndIsrLiveLeader4.Fits, seen := LeaderAndIsrLiveLeader4.seen, Canon := LeaderAndIsrLiveLeader4.Canon }

/-- Wire format of `LeaderAndIsrRequest`. -/
def LeaderAndIsrRequest.wire (version : Int16) (t : LeaderAndIsrRequest) : List Byte :=
  Wire.int32 t.ControllerId ++
  Wire.int32 t.ControllerEpoch ++
  Wire.when (version ≥ 2) (Wire.int64 t.BrokerEpoch) ++
  Wire.when (version ≥ 0 ∧ version ≤ 1) (Wire.array (LeaderAndIsrPartitionState4.wire version) t.UngroupedPartitionStates) ++
  Wire.when (version ≥ 2) (Wire.array (LeaderAndIsrTopicState4.wire version) t.TopicStates) ++
  Wire.array (LeaderAndIsrLiveLeader4.wire version) t.LiveLeaders

/-- Lengths are representable. -/
structure LeaderAndIsrRequest.Fits (version : Int16) (t : LeaderAndIsrRequest) : Prop where
  UngroupedPartitionStates : version ≥ 0 ∧ version ≤ 1 → FitsAll (LeaderAndIsrPartitionState4.Fits version) t.UngroupedPartitionStates
  TopicStates : version ≥ 2 → FitsAll (LeaderAndIsrTopicState4.Fits version) t.TopicStates
  LiveLeaders : FitsAll (LeaderAndIsrLiveLeader4.Fits version) t.LiveLeaders

/-- The value after `t` has been decoded into `t0`. -/
def LeaderAndIsrRequest.seen (version : Int16) (t t0 : LeaderAndIsrRequest) : LeaderAndIsrRequest :=
  { ControllerId := t.ControllerId,
    ControllerEpoch := t.ControllerEpoch,
    BrokerEpoch := if version ≥ 2 then t.BrokerEpoch else t0.BrokerEpoch,
    UngroupedPartitionStates := if version ≥ 0 ∧ version ≤ 1 then some (t.UngroupedPartitionStates.elems.map fun x => x.seen version {}) else t0.UngroupedPartitionStates,
    TopicStates := if version ≥ 2 then some (t.TopicStates.elems.map fun x => x.seen version {}) else t0.TopicStates,
    LiveLeaders := some (t.LiveLeaders.elems.map fun x => x.seen version {}) }

/-- Nothing in `t` is lost at this version. -/
structure LeaderAndIsrRequest.Canon (version : Int16) (t : LeaderAndIsrRequest) : Prop where
  BrokerEpoch : ¬(version ≥ 2) → t.BrokerEpoch = 0
  UngroupedPartitionStates : (version ≥ 0 ∧ version ≤ 1 → CanonAll (LeaderAndIsrPartitionState4.Canon version) t.UngroupedPartitionStates) ∧ (¬(version ≥ 0 ∧ version ≤ 1) → t.UngroupedPartitionStates = none)
  TopicStates : (version ≥ 2 → CanonAll (LeaderAndIsrTopicState4.Canon version) t.TopicStates) ∧ (¬(version ≥ 2) → t.TopicStates = none)
  LiveLeaders : CanonAll (LeaderAndIsrLiveLeader4.Canon version) t.LiveLeaders

/-- The specification of `LeaderAndIsrRequest`. -/
def LeaderAndIsrRequest.layout : Layout LeaderAndIsrRequest.type :=
  { wire := LeaderAndIsrRequest.wire, Fits := LeaderAndIsrRequest.Fits, seen := LeaderAndIsrRequest.seen, Canon := LeaderAndIsrRequest.Canon }

/-- Wire format of `LeaderAndIsrPartitionError4`. -/
def LeaderAndIsrPartitionError4.wire (_version : Int16) (t : LeaderAndIsrPartitionError4) : List Byte :=
  Wire.string t.TopicName ++
  Wire.int32 t.PartitionIndex ++
  Wire.int16 t.ErrorCode

/-- Lengths are representable. -/
structure LeaderAndIsrPartitionError4.Fits (version : Int16) (t : LeaderAndIsrPartitionError4) : Prop where
  TopicName : FitsString t.TopicName

/-- The value after `t` has been decoded into `t0`. -/
def LeaderAndIsrPartitionError4.seen (_version : Int16) (t _t0 : LeaderAndIsrPartitionError4) : LeaderAndIsrPartitionError4 :=
  { TopicName := t.TopicName,
    PartitionIndex := t.PartitionIndex,
    ErrorCode := t.ErrorCode }

/-- Nothing can be lost. -/
def LeaderAndIsrPartitionError4.Canon (_version : Int16) (_t : LeaderAndIsrPartitionError4) : Prop := True

/-- The specification of `LeaderAndIsrPartitionError4`. -/
def LeaderAndIsrPartitionError4.layout : Layout LeaderAndIsrPartitionError4.type :=
  { wire := LeaderAndIsrPartitionError4.wire, Fits := LeaderAndIsrPartitionError4.Fits, seen := LeaderAndIsrPartitionError4.seen, Canon := LeaderAndIsrPartitionError4.Canon }

/-- Wire format of `LeaderAndIsrResponse`. -/
def LeaderAndIsrResponse.wire (version : Int16) (t : LeaderAndIsrResponse) : List Byte :=
  Wire.int16 t.ErrorCode ++
  Wire.array (LeaderAndIsrPartitionError4.wire version) t.PartitionErrors

/-- Lengths are representable. -/
structure LeaderAndIsrResponse.Fits (version : Int16) (t : LeaderAndIsrResponse) : Prop where
  PartitionErrors : FitsAll (LeaderAndIsrPartitionError4.Fits version) t.PartitionErrors

/-- The value after `t` has been decoded into `t0`. -/
def LeaderAndIsrResponse.seen (version : Int16) (t _t0 : LeaderAndIsrResponse) : LeaderAndIsrResponse :=
  { ErrorCode := t.ErrorCode,
    PartitionErrors := some (t.PartitionErrors.elems.map fun x => x.seen version {}) }

/-- Nothing in `t` is lost at this version. -/
structure LeaderAndIsrResponse.Canon (version : Int16) (t : LeaderAndIsrResponse) : Prop where
  PartitionErrors : CanonAll (LeaderAndIsrPartitionError4.Canon version) t.PartitionErrors

/-- The specification of `LeaderAndIsrResponse`. -/
def LeaderAndIsrResponse.layout : Layout LeaderAndIsrResponse.type :=
  { wire := LeaderAndIsrResponse.wire, Fits := LeaderAndIsrResponse.Fits, seen := LeaderAndIsrResponse.seen, Canon := LeaderAndIsrResponse.Canon }

end Kafka.Msg
