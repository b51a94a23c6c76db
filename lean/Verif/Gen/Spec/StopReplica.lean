import Verif.Message.Layout
import Verif.Gen.Model.StopReplica
/-!
Generated by tools/gen_messages.py: specification of the StopReplica messages.
-/
namespace Kafka.Msg

/-- Wire format of `StopReplicaPartitionV05`. -/
def StopReplicaPartitionV05.wire (version : Int16) (t : StopReplicaPartitionV05) : List Byte :=
  Wire.when (version ≥ 0 ∧ version ≤ 0) (Wire.string t.TopicName) ++
  Wire.when (version ≥ 0 ∧ version ≤ 0) (Wire.int32 t.PartitionIndex)

/-- Lengths are representable. -/
structure StopReplicaPartitionV05.Fits (version : Int16) (t : StopReplicaPartitionV05) : Prop where
  TopicName : version ≥ 0 ∧ version ≤ 0 → FitsString t.TopicName

/-- The value after `t` has been decoded into `t0`. -/
def StopReplicaPartitionV05.seen (version : Int16) (t t0 : StopReplicaPartitionV05) : StopReplicaPartitionV05 :=
  { TopicName := if version ≥ 0 ∧ version ≤ 0 then t.TopicName else t0.TopicName,
    PartitionIndex := if version ≥ 0 ∧ version ≤ 0 then t.PartitionIndex else t0.PartitionIndex }

/-- Nothing in `t` is lost at this version. -/
structure StopReplicaPartitionV05.Canon (version : Int16) (t : StopReplicaPartitionV05) : Prop where
  TopicName : ¬(version ≥ 0 ∧ version ≤ 0) → t.TopicName = []
  PartitionIndex : ¬(version ≥ 0 ∧ version ≤ 0) → t.PartitionIndex = 0

/-- The specification of `StopReplicaPartitionV05`. -/
def StopReplicaPartitionV05.layout : Layout StopReplicaPartitionV05.type :=
  { wire := StopReplicaPartitionV05.wire, Fits := StopReplicaPartitionV05.Fits, seen := StopReplicaPartitionV05.seen, Canon := StopReplicaPartitionV05.Canon }

/-- Wire format of `StopReplicaTopic5`. -/
def StopReplicaTopic5.wire (version : Int16) (t : StopReplicaTopic5) : List Byte :=
  Wire.when (version ≥ 1) (Wire.string t.Name) ++
  Wire.when (version ≥ 1) (Wire.int32Array t.PartitionIndexes)

/-- Lengths are representable. -/
structure StopReplicaTopic5.Fits (version : Int16) (t : StopReplicaTopic5) : Prop where
  Name : version ≥ 1 → FitsString t.Name
  PartitionIndexes : version ≥ 1 → FitsSlice t.PartitionIndexes

/-- The value after `t` has been decoded into `t0`. -/
def StopReplicaTopic5.seen (version : Int16) (t t0 : StopReplicaTopic5) : StopReplicaTopic5 :=
  { Name := if version ≥ 1 then t.Name else t0.Name,
    PartitionIndexes := if version ≥ 1 then t.PartitionIndexes else t0.PartitionIndexes }

/-- Nothing in `t` is lost at this version. -/
structure StopReplicaTopic5.Canon (version : Int16) (t : StopReplicaTopic5) : Prop where
  Name : ¬(version ≥ 1) → t.Name = []
  PartitionIndexes : ¬(version ≥ 1) → t.PartitionIndexes = none

/-- The specification of `StopReplicaTopic5`. -/
def StopReplicaTopic5.layout : Layout StopReplicaTopic5.type :=
  { wire := StopReplicaTopic5.wire, Fits := StopReplicaTopic5.Fits, seen := StopReplicaTopic5.seen, Canon := StopReplicaTopic5.Canon }

/-- Wire format of `StopReplicaRequest`. -/
def StopReplicaRequest.wire (version : Int16) (t : StopReplicaRequest) : List Byte :=
  Wire.int32 t.ControllerId ++
  Wire.int32 t.ControllerEpoch ++
  Wire.when (version ≥ 1) (Wire.int64 t.BrokerEpoch) ++
  Wire.bool t.DeletePartitions ++
  Wire.when (version ≥ 0 ∧ version ≤ 0) (Wire.array (StopReplicaPartitionV05.wire version) t.UngroupedPartitions) ++
  Wire.when (version ≥ 1) (Wire.array (StopReplicaTopic5.wire version) t.Topics)

/-- Lengths are representable. -/
structure StopReplicaRequest.Fits (version : Int16) (t : StopReplicaRequest) : Prop where
  UngroupedPartitions : version ≥ 0 ∧ version ≤ 0 → FitsAll (StopReplicaPartitionV05.Fits version) t.UngroupedPartitions
  Topics : version ≥ 1 → FitsAll (StopReplicaTopic5.Fits version) t.Topics

/-- The value after `t` has been decoded into `t0`. -/
def StopReplicaRequest.seen (version : Int16) (t t0 : StopReplicaRequest) : StopReplicaRequest :=
  { ControllerId := t.ControllerId,
    ControllerEpoch := t.ControllerEpoch,
    BrokerEpoch := if version ≥ 1 then t.BrokerEpoch else t0.BrokerEpoch,
    DeletePartitions := t.DeletePartitions,
    UngroupedPartitions := if version ≥ 0 ∧ version ≤ 0 then some (t.UngroupedPartitions.elems.map fun x => x.seen version {}) else t0.UngroupedPartitions,
    Topics := if version ≥ 1 then some (t.Topics.elems.map fun x => x.seen version {}) else t0.Topics }

/-- Nothing in `t` is lost at this version. -/
structure StopReplicaRequest.Canon (version : Int16) (t : StopReplicaRequest) : Prop where
  BrokerEpoch : ¬(version ≥ 1) → t.BrokerEpoch = 0
  UngroupedPartitions : (version ≥ 0 ∧ version ≤ 0 → CanonAll (StopReplicaPartitionV05.Canon version) t.UngroupedPartitions) ∧ (¬(version ≥ 0 ∧ version ≤ 0) → t.UngroupedPartitions = none)
  Topics : (version ≥ 1 → CanonAll (StopReplicaTopic5.Canon version) t.Topics) ∧ (¬(version ≥ 1) → t.Topics = none)

/-- The specification of `StopReplicaRequest`. -/
def StopReplicaRequest.layout : Layout StopReplicaRequest.type :=
  { wire := StopReplicaRequest.wire, Fits := StopReplicaRequest.Fits, seen := StopReplicaRequest.seen, Canon := StopReplicaRequest.Canon }

/-- Wire format of `StopReplicaPartitionError5`. -/
def StopReplicaPartitionError5.wire (_version : Int16) (t : StopReplicaPartitionError5) : List Byte :=
  Wire.string t.TopicName ++
  Wire.int32 t.PartitionIndex ++
  Wire.int16 t.ErrorCode

/-- Lengths are representable. -/
structure StopReplicaPartitionError5.Fits (version : Int16) (t : StopReplicaPartitionError5) : Prop where
  TopicName : FitsString t.TopicName

/-- The value after `t` has been decoded into `t0`. -/
def StopReplicaPartitionError5.seen (_version : Int16) (t _t0 : StopReplicaPartitionError5) : StopReplicaPartitionError5 :=
  { TopicName := t.TopicName,
    PartitionIndex := t.PartitionIndex,
    ErrorCode := t.ErrorCode }

/-- Nothing can be lost. -/
def StopReplicaPartitionError5.Canon (_version : Int16) (_t : StopReplicaPartitionError5) : Prop := True

/-- The specification of `StopReplicaPartitionError5`. -/
def StopReplicaPartitionError5.layout : Layout StopReplicaPartitionError5.type :=
  { wire := StopReplicaPartitionError5.wire, Fits := StopReplicaPartitionError5.Fits, seen := StopReplicaPartitionError5.seen, Canon := StopReplicaPartitionError5.Canon }

/-- Wire format of `StopReplicaResponse`. -/
def StopReplicaResponse.wire (version : Int16) (t : StopReplicaResponse) : List Byte :=
  Wire.int16 t.ErrorCode ++
  Wire.array (StopReplicaPartitionError5.wire version) t.PartitionErrors

/-- Lengths are representable. -/
structure StopReplicaResponse.Fits (version : Int16) (t : StopReplicaResponse) : Prop where
  PartitionErrors : FitsAll (StopReplicaPartitionError5.Fits version) t.PartitionErrors

/-- The value after `t` has been decoded into `t0`. -/
def StopReplicaResponse.seen (version : Int16) (t _t0 : StopReplicaResponse) : StopReplicaResponse :=
  { ErrorCode := t.ErrorCode,
    PartitionErrors := some (t.PartitionErrors.elems.map fun x => x.seen version {}) }

/-- Nothing in `t` is lost at this version. -/
structure StopReplicaResponse.Canon (version : Int16) (t : StopReplicaResponse) : Prop where
  PartitionErrors : CanonAll (StopReplicaPartitionError5.Canon version) t.PartitionErrors

/-- The specification of `StopReplicaResponse`. -/
def StopReplicaResponse.layout : Layout StopReplicaResponse.type :=
  { wire := StopReplicaResponse.wire, Fits := StopReplicaResponse.Fits, seen := StopReplicaResponse.seen, Canon := StopReplicaResponse.Canon }

end Kafka.Msg
