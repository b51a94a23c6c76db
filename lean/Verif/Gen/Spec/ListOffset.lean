import Verif.Message.Layout
import Verif.Gen.Model.ListOffset
/-!
Generated by tools/gen_messages.py: specification of the ListOffset messages.
-/
namespace Kafka.Msg

/-- Wire format of `ListOffsetPartition2`. -/
def ListOffsetPartition2.wire (version : Int16) (t : ListOffsetPartition2) : List Byte :=
  Wire.int32 t.PartitionIndex ++
  Wire.when (version ≥ 4) (Wire.int32 t.CurrentLeaderEpoch) ++
  Wire.int64 t.Timestamp ++
  Wire.when (version ≥ 0 ∧ version ≤ 0) (Wire.int32 t.MaxNumOffsets)

/-- No field has a length prefix. -/
def ListOffsetPartition2.Fits (_version : Int16) (_t : ListOffsetPartition2) : Prop := True

/-- The value after `t` has been decoded into `t0`. -/
def ListOffsetPartition2.seen (version : Int16) (t t0 : ListOffsetPartition2) : ListOffsetPartition2 :=
  { PartitionIndex := t.PartitionIndex,
    CurrentLeaderEpoch := if version ≥ 4 then t.CurrentLeaderEpoch else t0.CurrentLeaderEpoch,
    Timestamp := t.Timestamp,
    MaxNumOffsets := if version ≥ 0 ∧ version ≤ 0 then t.MaxNumOffsets else t0.MaxNumOffsets }

/-- Nothing in `t` is lost at this version. -/
structure ListOffsetPartition2.Canon (version : Int16) (t : ListOffsetPartition2) : Prop where
  CurrentLeaderEpoch : ¬(version ≥ 4) → t.CurrentLeaderEpoch = 0
  MaxNumOffsets : ¬(version ≥ 0 ∧ version ≤ 0) → t.MaxNumOffsets = 0

/-- The specification of `ListOffsetPartition2`. -/
def ListOffsetPartition2.layout : Layout ListOffsetPartition2.type :=
  { wire := ListOffsetPartition2.wire, Fits := ListOffsetPartition2.Fits, seen := ListOffsetPartition2.seen, Canon := ListOffsetPartition2.Canon }

/-- Wire format of `ListOffsetTopic2`. -/
def ListOffsetTopic2.wire (version : Int16) (t : ListOffsetTopic2) : List Byte :=
  Wire.string t.Name ++
  Wire.array (ListOffsetPartition2.wire version) t.Partitions

/-- Lengths are representable. -/
structure ListOffsetTopic2.Fits (version : Int16) (t : ListOffsetTopic2) : Prop where
  Name : FitsString t.Name
  Partitions : FitsAll (ListOffsetPartition2.Fits version) t.Partitions

/-- The value after `t` has been decoded into `t0`. -/
def ListOffsetTopic2.seen (version : Int16) (t _t0 : ListOffsetTopic2) : ListOffsetTopic2 :=
  { Name := t.Name,
    Partitions := some (t.Partitions.elems.map fun x => x.seen version {}) }

/-- Nothing in `t` is lost at this version. -/
structure ListOffsetTopic2.Canon (version : Int16) (t : ListOffsetTopic2) : Prop where
  Partitions : CanonAll (ListOffsetPartition2.Canon version) t.Partitions

/-- The specification of `ListOffsetTopic2`. -/
def ListOffsetTopic2.layout : Layout ListOffsetTopic2.type :=
  { wire := ListOffsetTopic2.wire, Fits := ListOffsetTopic2.Fits, seen := ListOffsetTopic2.seen, Canon := ListOffsetTopic2.Canon }

/-- Wire format of `ListOffsetRequest`. -/
def ListOffsetRequest.wire (version : Int16) (t : ListOffsetRequest) : List Byte :=
  Wire.int32 t.ReplicaId ++
  Wire.when (version ≥ 2) (Wire.int8 t.IsolationLevel) ++
  Wire.array (ListOffsetTopic2.wire version) t.Topics

/-- Lengths are representable. -/
structure ListOffsetRequest.Fits (version : Int16) (t : ListOffsetRequest) : Prop where
  Topics : FitsAll (ListOffsetTopic2.Fits version) t.Topics

/-- The value after `t` has been decoded into `t0`. -/
def ListOffsetRequest.seen (version : Int16) (t t0 : ListOffsetRequest) : ListOffsetRequest :=
  { ReplicaId := t.ReplicaId,
    IsolationLevel := if version ≥ 2 then t.IsolationLevel else t0.IsolationLevel,
    Topics := some (t.Topics.elems.map fun x => x.seen version {}) }

/-- Nothing in `t` is lost at this version. -/
structure ListOffsetRequest.Canon (version : Int16) (t : ListOffsetRequest) : Prop where
  IsolationLevel : ¬(version ≥ 2) → t.IsolationLevel = 0
  Topics : CanonAll (ListOffsetTopic2.Canon version) t.Topics

/-- The specification of `ListOffsetRequest`. -/
def ListOffsetRequest.layout : Layout ListOffsetRequest.type :=
  { wire := ListOffsetRequest.wire, Fits := ListOffsetRequest.Fits, seen := ListOffsetRequest.seen, Canon := ListOffsetRequest.Canon }

/-- Wire format of `ListOffsetPartitionResponse2`. -/
def ListOffsetPartitionResponse2.wire (version : Int16) (t : ListOffsetPartitionResponse2) : List Byte :=
  Wire.int32 t.PartitionIndex ++
  Wire.int16 t.ErrorCode ++
  Wire.when (version ≥ 0 ∧ version ≤ 0) (Wire.int64Array t.OldStyleOffsets) ++
  Wire.when (version ≥ 1) (Wire.int64 t.Timestamp) ++
  Wire.when (version ≥ 1) (Wire.int64 t.Offset) ++
  Wire.when (version ≥ 4) (Wire.int32 t.LeaderEpoch)

/-- Lengths are representable. -/
structure ListOffsetPartitionResponse2.Fits (version : Int16) (t : ListOffsetPartitionResponse2) : Prop where
  OldStyleOffsets : version ≥ 0 ∧ version ≤ 0 → FitsSlice t.OldStyleOffsets

/-- The value after `t` has been decoded into `t0`. -/
def ListOffsetPartitionResponse2.seen (version : Int16) (t t0 : ListOffsetPartitionResponse2) : ListOffsetPartitionResponse2 :=
  { PartitionIndex := t.PartitionIndex,
    ErrorCode := t.ErrorCode,
    OldStyleOffsets := if version ≥ 0 ∧ version ≤ 0 then t.OldStyleOffsets else t0.OldStyleOffsets,
    Timestamp := if version ≥ 1 then t.Timestamp else t0.Timestamp,
    Offset := if version ≥ 1 then t.Offset else t0.Offset,
    LeaderEpoch := if version ≥ 4 then t.LeaderEpoch else t0.LeaderEpoch }

/-- Nothing in `t` is lost at this version. -/
structure ListOffsetPartitionResponse2.Canon (version : Int16) (t : ListOffsetPartitionResponse2) : Prop where
  OldStyleOffsets : ¬(version ≥ 0 ∧ version ≤ 0) → t.OldStyleOffsets = none
  Timestamp : ¬(version ≥ 1) → t.Timestamp = 0
  Offset : ¬(version ≥ 1) → t.Offset = 0
  LeaderEpoch : ¬(version ≥ 4) → t.LeaderEpoch = 0

/-- The specification of `ListOffsetPartitionResponse2`. -/
def ListOffsetPartitionResponse2.layout : Layout ListOffsetPartitionResponse2.type :=
  { wire := ListOffsetPartitionResponse2.wire, Fits := ListOffsetPartitionResponse2.Fits, seen := ListOffsetPartitionResponse2.seen, Canon := ListOffsetPartitionResponse2.Canon }

/-- Wire format of `ListOffsetTopicResponse2`. -/
def ListOffsetTopicResponse2.wire (version : Int16) (t : ListOffsetTopicResponse2) : List Byte :=
  Wire.string t.Name ++
  Wire.array (ListOffsetPartitionResponse2.wire version) t.Partitions

/-- Lengths are representable. -/
structure ListOffsetTopicResponse2.Fits (version : Int16) (t : ListOffsetTopicResponse2) : Prop where
  Name : FitsString t.Name
  Partitions : FitsAll (ListOffsetPartitionResponse2.Fits version) t.Partitions

/-- The value after `t` has been decoded into `t0`. -/
def ListOffsetTopicResponse2.seen (version : Int16) (t _t0 : ListOffsetTopicResponse2) : ListOffsetTopicResponse2 :=
  { Name := t.Name,
    Partitions := some (t.Partitions.elems.map fun x => x.seen version {}) }

/-- Nothing in `t` is lost at this version. -/
structure ListOffsetTopicResponse2.Canon (version : Int16) (t : ListOffsetTopicResponse2) : Prop where
  Partitions : CanonAll (ListOffsetPartitionResponse2.Canon version) t.Partitions

/-- The specification of `ListOffsetTopicResponse2`. -/
def ListOffsetTopicResponse2.layout : Layout ListOffsetTopicResponse2.type :=
  { wire := ListOffsetTopicResponse2.wire, Fits := ListOffsetTopicResponse2.Fits, seen := ListOffsetTopicResponse2.seen, Canon := ListOffsetTopicResponse2.Canon }

/-- Wire format of `ListOffsetResponse`. -/
def ListOffsetResponse.wire (version : Int16) (t : ListOffsetResponse) : List Byte :=
  Wire.when (version ≥ 2) (Wire.int32 t.ThrottleTimeMs) ++
  Wire.array (ListOffsetTopicResponse2.wire version) t.Topics

/-- Lengths are representable. -/
structure ListOffsetResponse.Fits (version : Int16) (t : ListOffsetResponse) : Prop where
  Topics : FitsAll (ListOffsetTopicResponse2.Fits version) t.Topics

/-- The value after `t` has been decoded into `t0`. -/
def ListOffsetResponse.seen (version : Int16) (t t0 : ListOffsetResponse) : ListOffsetResponse :=
  { ThrottleTimeMs := if version ≥ 2 then t.ThrottleTimeMs else t0.ThrottleTimeMs,
    Topics := some (t.Topics.elems.map fun x => x.seen version {}) }

/-- Nothing in `t` is lost at this version. -/
structure ListOffsetResponse.Canon (version : Int16) (t : ListOffsetResponse) : Prop where
  ThrottleTimeMs : ¬(version ≥ 2) → t.ThrottleTimeMs = 0
  Topics : CanonAll (ListOffsetTopicResponse2.Canon version) t.Topics

/-- The specification of `ListOffsetResponse`. -/
def ListOffsetResponse.layout : Layout ListOffsetResponse.type :=
  { wire := ListOffsetResponse.wire, Fits := ListOffsetResponse.Fits, seen := ListOffsetResponse.seen, Canon := ListOffsetResponse.Canon }

end Kafka.Msg
