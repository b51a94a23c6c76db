import Verif.Message.Layout
import Verif.Gen.Model.OffsetFetch
/-!
Generated by tools/gen_messages.py: specification of the OffsetFetch messages.
-/
namespace Kafka.Msg

/-- Wire format of `OffsetFetchRequestTopic9`. -/
def OffsetFetchRequestTopic9.wire (_version : Int16) (t : OffsetFetchRequestTopic9) : List Byte :=
  Wire.string t.Name ++
  Wire.int32Array t.PartitionIndexes

/-- Lengths are representable. -/
structure OffsetFetchRequestTopic9.Fits (version : Int16) (t : OffsetFetchRequestTopic9) : Prop where
  Name : FitsString t.Name
  PartitionIndexes : FitsSlice t.PartitionIndexes

/-- The value after `t` has been decoded into `t0`. -/
def OffsetFetchRequestTopic9.seen (_version : Int16) (t _t0 : OffsetFetchRequestTopic9) : OffsetFetchRequestTopic9 :=
  { Name := t.Name,
    PartitionIndexes := t.PartitionIndexes }

/-- Nothing can be lost. -/
def OffsetFetchRequestTopic9.Canon (_version : Int16) (_t : OffsetFetchRequestTopic9) : Prop := True

/-- The specification of `OffsetFetchRequestTopic9`. -/
def OffsetFetchRequestTopic9.layout : Layout OffsetFetchRequestTopic9.type :=
  { wire := OffsetFetchRequestTopic9.wire, Fits := OffsetFetchRequestTopic9.Fits, seen := OffsetFetchRequestTopic9.seen, Canon := OffsetFetchRequestTopic9.Canon }

/-- Wire format of `OffsetFetchRequest`. -/
def OffsetFetchRequest.wire (version : Int16) (t : OffsetFetchRequest) : List Byte :=
  Wire.string t.GroupId ++
  Wire.array (OffsetFetchRequestTopic9.wire version) t.Topics

/-- Lengths are representable. -/
structure OffsetFetchRequest.Fits (version : Int16) (t : OffsetFetchRequest) : Prop where
  GroupId : FitsString t.GroupId
  Topics : FitsAll (OffsetFetchRequestTopic9.Fits version) t.Topics

/-- The value after `t` has been decoded into `t0`. -/
def OffsetFetchRequest.seen (version : Int16) (t _t0 : OffsetFetchRequest) : OffsetFetchRequest :=
  { GroupId := t.GroupId,
    Topics := some (t.Topics.elems.map fun x => x.seen version {}) }

/-- Nothing in `t` is lost at this version. -/
structure OffsetFetchRequest.Canon (version : Int16) (t : OffsetFetchRequest) : Prop where
  Topics : CanonAll (OffsetFetchRequestTopic9.Canon version) t.Topics

/-- The specification of `OffsetFetchRequest`. -/
def OffsetFetchRequest.layout : Layout OffsetFetchRequest.type :=
  { wire := OffsetFetchRequest.wire, Fits := OffsetFetchRequest.Fits, seen := OffsetFetchRequest.seen, Canon := OffsetFetchRequest.Canon }

/-- Wire format of `OffsetFetchResponsePartition9`. -/
def OffsetFetchResponsePartition9.wire (version : Int16) (t : OffsetFetchResponsePartition9) : List Byte :=
  Wire.int32 t.PartitionIndex ++
  Wire.int64 t.CommittedOffset ++
  Wire.when (version ≥ 5) (Wire.int32 t.CommittedLeaderEpoch) ++
  Wire.string t.Metadata ++
  Wire.int16 t.ErrorCode

/-- Lengths are representable. -/
structure OffsetFetchResponsePartition9.Fits (version : Int16) (t : OffsetFetchResponsePartition9) : Prop where
  Metadata : FitsString t.Metadata

/-- The value after `t` has been decoded into `t0`. -/
def OffsetFetchResponsePartition9.seen (version : Int16) (t t0 : OffsetFetchResponsePartition9) : OffsetFetchResponsePartition9 :=
  { PartitionIndex := t.PartitionIndex,
    CommittedOffset := t.CommittedOffset,
    CommittedLeaderEpoch := if version ≥ 5 then t.CommittedLeaderEpoch else t0.CommittedLeaderEpoch,
    Metadata := t.Metadata,
    ErrorCode := t.ErrorCode }

/-- Nothing in `t` is lost at this version. -/
structure OffsetFetchResponsePartition9.Canon (version : Int16) (t : OffsetFetchResponsePartition9) : Prop where
  CommittedLeaderEpoch : ¬(version ≥ 5) → t.CommittedLeaderEpoch = 0

/-- The specification of `OffsetFetchResponsePartition9`. -/
def OffsetFetchResponsePartition9.layout : Layout OffsetFetchResponsePartition9.type :=
  { wire := OffsetFetchResponsePartition9.wire, Fits := OffsetFetchResponsePartition9.Fits, seen := OffsetFetchResponsePartition9.seen, Canon := OffsetFetchResponsePartition9.Canon }

/-- Wire format of `OffsetFetchResponseTopic9`. -/
def OffsetFetchResponseTopic9.wire (version : Int16) (t : OffsetFetchResponseTopic9) : List Byte :=
  Wire.string t.Name ++
  Wire.array (OffsetFetchResponsePartition9.wire version) t.Partitions

/-- Lengths are representable. -/
structure OffsetFetchResponseTopic9.Fits (version : Int16) (t : OffsetFetchResponseTopic9) : Prop where
  Name : FitsString t.Name
  Partitions : FitsAll (OffsetFetchResponsePartition9.Fits version) t.Partitions

/-- The value after `t` has been decoded into `t0`. -/
def OffsetFetchResponseTopic9.seen (version : Int16) (t _t0 : OffsetFetchResponseTopic9) : OffsetFetchResponseTopic9 :=
  { Name := t.Name,
    Partitions := some (t.Partitions.elems.map fun x => x.seen version {}) }

/-- Nothing in `t` is lost at this version. -/
structure OffsetFetchResponseTopic9.Canon (version : Int16) (t : OffsetFetchResponseTopic9) : Prop where
  Partitions : CanonAll (OffsetFetchResponsePartition9.Canon version) t.Partitions

/-- The specification of `OffsetFetchResponseTopic9`. -/
def OffsetFetchResponseTopic9.layout : Layout OffsetFetchResponseTopic9.type :=
  { wire := OffsetFetchResponseTopic9.wire, Fits := OffsetFetchResponseTopic9.Fits, seen := OffsetFetchResponseTopic9.seen, Canon := OffsetFetchResponseTopic9.Canon }

/-- Wire format of `OffsetFetchResponse`. -/
def OffsetFetchResponse.wire (version : Int16) (t : OffsetFetchResponse) : List Byte :=
  Wire.when (version ≥ 3) (Wire.int32 t.ThrottleTimeMs) ++
  Wire.array (OffsetFetchResponseTopic9.wire version) t.Topics ++
  Wire.when (version ≥ 2) (Wire.int16 t.ErrorCode)

/-- Lengths are representable. -/
structure OffsetFetchResponse.Fits (version : Int16) (t : OffsetFetchResponse) : Prop where
  Topics : FitsAll (OffsetFetchResponseTopic9.Fits version) t.Topics

/-- The value after `t` has been decoded into `t0`. -/
def OffsetFetchResponse.seen (version : Int16) (t t0 : OffsetFetchResponse) : OffsetFetchResponse :=
  { ThrottleTimeMs := if version ≥ 3 then t.ThrottleTimeMs else t0.ThrottleTimeMs,
    Topics := some (t.Topics.elems.map fun x => x.seen version {}),
    ErrorCode := if version ≥ 2 then t.ErrorCode else t0.ErrorCode }

/-- Nothing in `t` is lost at this version. -/
structure OffsetFetchResponse.Canon (version : Int16) (t : OffsetFetchResponse) : Prop where
  ThrottleTimeMs : ¬(version ≥ 3) → t.ThrottleTimeMs = 0
  Topics : CanonAll (OffsetFetchResponseTopic9.Canon version) t.Topics
  ErrorCode : ¬(version ≥ 2) → t.ErrorCode = 0

/-- The specification of `OffsetFetchResponse`. -/
def OffsetFetchResponse.layout : Layout OffsetFetchResponse.type :=
  { wire := OffsetFetchResponse.wire, Fits := OffsetFetchResponse.Fits, seen := OffsetFetchResponse.seen, Canon := OffsetFetchResponse.Canon }

end Kafka.Msg
