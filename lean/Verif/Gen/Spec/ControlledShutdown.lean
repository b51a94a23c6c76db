import Verif.Message.Layout
import Verif.Gen.Model.ControlledShutdown
/-!
Generated by tools/gen_messages.py: specification of the ControlledShutdown messages.
-/
namespace Kafka.Msg

/-- Wire format of `ControlledShutdownRequest`. -/
def ControlledShutdownRequest.wire (version : Int16) (t : ControlledShutdownRequest) : List Byte :=
  Wire.int32 t.BrokerId ++
  Wire.when (version ≥ 2) (Wire.int64 t.BrokerEpoch)

/-- No field has a length prefix. -/
def ControlledShutdownRequest.Fits (_version : Int16) (_t : ControlledShutdownRequest) : Prop := True

/-- The value after `t` has been decoded into `t0`. -/
def ControlledShutdownRequest.seen (version : Int16) (t t0 : ControlledShutdownRequest) : ControlledShutdownRequest :=
  { BrokerId := t.BrokerId,
    BrokerEpoch := if version ≥ 2 then t.BrokerEpoch else t0.BrokerEpoch }

/-- Nothing in `t` is lost at this version. -/
structure ControlledShutdownRequest.Canon (version : Int16) (t : ControlledShutdownRequest) : Prop where
  BrokerEpoch : ¬(version ≥ 2) → t.BrokerEpoch = 0

/-- The specification of `ControlledShutdownRequest`. -/
def ControlledShutdownRequest.layout : Layout ControlledShutdownRequest.type :=
  { wire := ControlledShutdownRequest.wire, Fits := ControlledShutdownRequest.Fits, seen := ControlledShutdownRequest.seen, Canon := ControlledShutdownRequest.Canon }

/-- Wire format of `RemainingPartition7`. -/
def RemainingPartition7.wire (_version : Int16) (t : RemainingPartition7) : List Byte :=
  Wire.string t.TopicName ++
  Wire.int32 t.PartitionIndex

/-- Lengths are representable. -/
structure RemainingPartition7.Fits (version : Int16) (t : RemainingPartition7) : Prop where
  TopicName : FitsString t.TopicName

/-- The value after `t` has been decoded into `t0`. -/
def RemainingPartition7.seen (_version : Int16) (t _t0 : RemainingPartition7) : RemainingPartition7 :=
  { TopicName := t.TopicName,
    PartitionIndex := t.PartitionIndex }

/-- Nothing can be lost. -/
def RemainingPartition7.Canon (_version : Int16) (_t : RemainingPartition7) : Prop := True

/-- The specification of `RemainingPartition7`. -/
def RemainingPartition7.layout : Layout RemainingPartition7.type :=
  { wire := RemainingPartition7.wire, Fits := RemainingPartition7.Fits, seen := RemainingPartition7.seen, Canon := RemainingPartition7.Canon }

/-- Wire format of `ControlledShutdownResponse`. -/
def ControlledShutdownResponse.wire (version : Int16) (t : ControlledShutdownResponse) : List Byte :=
  Wire.int16 t.ErrorCode ++
  Wire.array (RemainingPartition7.wire version) t.RemainingPartitions

/-- Lengths are representable. -/
structure ControlledShutdownResponse.Fits (version : Int16) (t : ControlledShutdownResponse) : Prop where
  RemainingPartitions : FitsAll (RemainingPartition7.Fits version) t.RemainingPartitions

/-- The value after `t` has been decoded into `t0`. -/
def ControlledShutdownResponse.seen (version : Int16) (t _t0 : ControlledShutdownResponse) : ControlledShutdownResponse :=
  { ErrorCode := t.ErrorCode,
    RemainingPartitions := some (t.RemainingPartitions.elems.map fun x => x.seen version {}) }

/-- Nothing in `t` is lost at this version. -/
structure ControlledShutdownResponse.Canon (version : Int16) (t : ControlledShutdownResponse) : Prop where
  RemainingPartitions : CanonAll (RemainingPartition7.Canon version) t.RemainingPartitions

/-- The specification of `ControlledShutdownResponse`. -/
def ControlledShutdownResponse.layout : Layout ControlledShutdownResponse.type :=
  { wire := ControlledShutdownResponse.wire, Fits := ControlledShutdownResponse.Fits, seen := ControlledShutdownResponse.seen, Canon := ControlledShutdownResponse.Canon }

end Kafka.Msg
