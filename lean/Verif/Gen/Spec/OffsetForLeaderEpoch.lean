import Verif.Message.Layout
import Verif.Gen.Model.OffsetForLeaderEpoch
/-!
Generated by tools/gen_messages.py: specification of the OffsetForLeaderEpoch messages.
-/
namespace Kafka.Msg

/-- Wire format of `OffsetForLeaderPartition23`. -/
def OffsetForLeaderPartition23.wire (version : Int16) (t : OffsetForLeaderPartition23) : List Byte :=
  Wire.int32 t.PartitionIndex ++
  Wire.when (version ≥ 2) (Wire.int32 t.CurrentLeaderEpoch) ++
  Wire.int32 t.LeaderEpoch

/-- No field has a length prefix. -/
def OffsetForLeaderPartition23.Fits (_version : Int16) (_t : OffsetForLeaderPartition23) : Prop := True

/-- The value after `t` has been decoded into `t0`. -/
def OffsetForLeaderPartition23.seen (version : Int16) (t t0 : OffsetForLeaderPartition23) : OffsetForLeaderPartition23 :=
  { PartitionIndex := t.PartitionIndex,
    CurrentLeaderEpoch := if version ≥ 2 then t.CurrentLeaderEpoch else t0.CurrentLeaderEpoch,
    LeaderEpoch := t.LeaderEpoch }

/-- Nothing in `t` is lost at this version. -/
structure OffsetForLeaderPartition23.Canon (version : Int16) (t : OffsetForLeaderPartition23) : Prop where
  CurrentLeaderEpoch : ¬(version ≥ 2) → t.CurrentLeaderEpoch = 0

/-- The specification of `OffsetForLeaderPartition23`. -/
def OffsetForLeaderPartition23.layout : Layout OffsetForLeaderPartition23.type :=
  { wire := OffsetForLeaderPartition23.wire, Fits := OffsetForLeaderPartition23.Fits, seen := OffsetForLeaderPartition23.seen, Canon := OffsetForLeaderPartition23.Canon }

/-- Wire format of `OffsetForLeaderTopic23`. -/
def OffsetForLeaderTopic23.wire (version : Int16) (t : OffsetForLeaderTopic23) : List Byte :=
  Wire.string t.Name ++
  Wire.array (OffsetForLeaderPartition23.wire version) t.Partitions

/-- Lengths are representable. -/
structure OffsetForLeaderTopic23.Fits (version : Int16) (t : OffsetForLeaderTopic23) : Prop where
  Name : FitsString t.Name
  Partitions : FitsAll (OffsetForLeaderPartition23.Fits version) t.Partitions

/-- The value after `t` has been decoded into `t0`. -/
def OffsetForLeaderTopic23.seen (version : Int16) (t _t0 : OffsetForLeaderTopic23) : OffsetForLeaderTopic23 :=
  { Name := t.Name,
    Partitions := some (t.Partitions.elems.map fun x => x.seen version {}) }

/-- Nothing in `t` is lost at this version. -/
structure OffsetForLeaderTopic23.Canon (version : Int16) (t : OffsetForLeaderTopic23) : Prop where
  Partitions : CanonAll (OffsetForLeaderPartition23.Canon version) t.Partitions

/-- The specification of `OffsetForLeaderTopic23`. -/
def OffsetForLeaderTopic23.layout : Layout OffsetForLeaderTopic23.type :=
  { wire := OffsetForLeaderTopic23.wire, Fits := OffsetForLeaderTopic23.Fits, seen := OffsetForLeaderTopic23.seen, Canon := OffsetForLeaderTopic23.Canon }

/-- Wire format of `OffsetForLeaderEpochRequest`. -/
def OffsetForLeaderEpochRequest.wire (version : Int16) (t : OffsetForLeaderEpochRequest) : List Byte :=
  Wire.when (version ≥ 3) (Wire.int32 t.ReplicaId) ++
  Wire.array (OffsetForLeaderTopic23.wire version) t.Topics

/-- Lengths are representable. -/
structure OffsetForLeaderEpochRequest.Fits (version : Int16) (t : OffsetForLeaderEpochRequest) : Prop where
  Topics : FitsAll (OffsetForLeaderTopic23.Fits version) t.Topics

/-- The value after `t` has been decoded into `t0`. -/
def OffsetForLeaderEpochRequest.seen (version : Int16) (t t0 : OffsetForLeaderEpochRequest) : OffsetForLeaderEpochRequest :=
  { ReplicaId := if version ≥ 3 then t.ReplicaId else t0.ReplicaId,
    Topics := some (t.Topics.elems.map fun x => x.seen version {}) }

/-- Nothing in `t` is lost at this version. -/
structure OffsetForLeaderEpochRequest.Canon (version : Int16) (t : OffsetForLeaderEpochRequest) : Prop where
  ReplicaId : ¬(version ≥ 3) → t.ReplicaId = 0
  Topics : CanonAll (OffsetForLeaderTopic23.Canon version) t.Topics

/-- The specification of `OffsetForLeaderEpochRequest`. -/
def OffsetForLeaderEpochRequest.layout : Layout OffsetForLeaderEpochRequest.type :=
  { wire := OffsetForLeaderEpochRequest.wire, Fits := OffsetForLeaderEpochRequest.Fits, seen := OffsetForLeaderEpochRequest.seen, Canon := OffsetForLeaderEpochRequest.Canon }

/-- Wire format of `OffsetForLeaderPartitionResult23`. -/
def OffsetForLeaderPartitionResult23.wire (version : Int16) (t : OffsetForLeaderPartitionResult23) : List Byte :=
  Wire.int16 t.ErrorCode ++
  Wire.int32 t.PartitionIndex ++
  Wire.when (version ≥ 1) (Wire.int32 t.LeaderEpoch) ++
  Wire.int64 t.EndOffset

/-- No field has a length prefix. -/
def OffsetForLeaderPartitionResult23.Fits (_version : Int16) (_t : OffsetForLeaderPartitionResult23) : Prop := True

/-- The value after `t` has been decoded into `t0`. -/
def OffsetForLeaderPartitionResult23.seen (version : Int16) (t t0 : OffsetForLeaderPartitionResult23) : OffsetForLeaderPartitionResult23 :=
  { ErrorCode := t.ErrorCode,
    PartitionIndex := t.PartitionIndex,
    LeaderEpoch := if version ≥ 1 then t.LeaderEpoch else t0.LeaderEpoch,
    EndOffset := t.EndOffset }

/-- Nothing in `t` is lost at this version. -/
structure OffsetForLeaderPartitionResult23.Canon (version : Int16) (t : OffsetForLeaderPartitionResult23) : Prop where
  LeaderEpoch : ¬(version ≥ 1) → t.LeaderEpoch = 0

/-- The specification of `OffsetForLeaderPartitionResult23`. -/
def OffsetForLeaderPartitionResult23.layout : Layout OffsetForLeaderPartitionResult23.type :=
  { wire := OffsetForLeaderPartitionResult23.wire, Fits := OffsetForLeaderPartitionResult23.Fits, seen := OffsetForLeaderPartitionResult23.seen, Canon := OffsetForLeaderPartitionResult23.Canon }

/-- Wire format of `OffsetForLeaderTopicResult23`. -/
def OffsetForLeaderTopicResult23.wire (version : Int16) (t : OffsetForLeaderTopicResult23) : List Byte :=
  Wire.string t.Name ++
  Wire.array (OffsetForLeaderPartitionResult23.wire version) t.Partitions

/-- Lengths are representable. -/
structure OffsetForLeaderTopicResult23.Fits (version : Int16) (t : OffsetForLeaderTopicResult23) : Prop where
  Name : FitsString t.Name
  Partitions : FitsAll (OffsetForLeaderPartitionResult23.Fits version) t.Partitions

/-- The value after `t` has been decoded into `t0`. -/
def OffsetForLeaderTopicResult23.seen (version : Int16) (t _t0 : OffsetForLeaderTopicResult23) : OffsetForLeaderTopicResult23 :=
  { Name := t.Name,
    Partitions := some (t.Partitions.elems.map fun x => x.seen version {}) }

/-- Nothing in `t` is lost at this version. -/
structure OffsetForLeaderTopicResult23.Canon (version : Int16) (t : OffsetForLeaderTopicResult23) : Prop where
  Partitions : CanonAll (OffsetForLeaderPartitionResult23.Canon version) t.Partitions

/-- The specification of `OffsetForLeaderTopicResult23`. -/
def OffsetForLeaderTopicResult23.layout : Layout OffsetForLeaderTopicResult23.type :=
  { wire := OffsetForLeaderTopicResult23.wire, Fits := OffsetForLeaderTopicResult23.Fits, seen := OffsetForLeaderTopicResult23.seen, Canon := OffsetForLeaderTopicResult23.Canon }

/-- Wire format of `OffsetForLeaderEpochResponse`. -/
def OffsetForLeaderEpochResponse.wire (version : Int16) (t : OffsetForLeaderEpochResponse) : List Byte :=
  Wire.when (version ≥ 2) (Wire.int32 t.ThrottleTimeMs) ++
  Wire.array (OffsetForLeaderTopicResult23.wire version) t.Topics

/-- Lengths are representable. -/
structure OffsetForLeaderEpochResponse.Fits (version : Int16) (t : OffsetForLeaderEpochResponse) : Prop where
  Topics : FitsAll (OffsetForLeaderTopicResult23.Fits version) t.Topics

/-- The value after `t` has been decoded into `t0`. -/
def OffsetForLeaderEpochResponse.seen (version : Int16) (t t0 : OffsetForLeaderEpochResponse) : OffsetForLeaderEpochResponse :=
  { ThrottleTimeMs := if version ≥ 2 then t.ThrottleTimeMs else t0.ThrottleTimeMs,
    Topics := some (t.Topics.elems.map fun x => x.seen version {}) }

/-- Nothing in `t` is lost at this version. -/
structure OffsetForLeaderEpochResponse.Canon (version : Int16) (t : OffsetForLeaderEpochResponse) : Prop where
  ThrottleTimeMs : ¬(version ≥ 2) → t.ThrottleTimeMs = 0
  Topics : CanonAll (OffsetForLeaderTopicResult23.Canon version) t.Topics

/-- The specification of `OffsetForLeaderEpochResponse`. -/
def OffsetForLeaderEpochResponse.layout : Layout OffsetForLeaderEpochResponse.type :=
  { wire := OffsetForLeaderEpochResponse.wire, Fits := OffsetForLeaderEpochResponse.Fits, seen := OffsetForLeaderEpochResponse.seen, Canon := OffsetForLeaderEpochResponse.Canon }

end Kafka.Msg
