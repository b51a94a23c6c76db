import Verif.Message.Layout
import Verif.Gen.Model.DeleteRecords
/-!
Generated by tools/gen_messages.py: specification of the DeleteRecords messages.
-/
namespace Kafka.Msg

/-- Wire format of `DeleteRecordsPartition21`. -/
def DeleteRecordsPartition21.wire (_version : Int16) (t : DeleteRecordsPartition21) : List Byte :=
  Wire.int32 t.PartitionIndex ++
  Wire.int64 t.Offset

/-- No field has a length prefix. -/
def DeleteRecordsPartition21.Fits (_version : Int16) (_t : DeleteRecordsPartition21) : Prop := True

/-- The value after `t` has been decoded into `t0`. -/
def DeleteRecordsPartition21.seen (_version : Int16) (t _t0 : DeleteRecordsPartition21) : DeleteRecordsPartition21 :=
  { PartitionIndex := t.PartitionIndex,
    Offset := t.Offset }

/-- Nothing can be lost. -/
def DeleteRecordsPartition21.Canon (_version : Int16) (_t : DeleteRecordsPartition21) : Prop := True

/-- The specification of `DeleteRecordsPartition21`. -/
def DeleteRecordsPartition21.layout : Layout DeleteRecordsPartition21.type :=
  { wire := DeleteRecordsPartition21.wire, Fits := DeleteRecordsPartition21.Fits, seen := DeleteRecordsPartition21.seen, Canon := DeleteRecordsPartition21.Canon }

/-- Wire format of `DeleteRecordsTopic21`. -/
def DeleteRecordsTopic21.wire (version : Int16) (t : DeleteRecordsTopic21) : List Byte :=
  Wire.string t.Name ++
  Wire.array (DeleteRecordsPartition21.wire version) t.Partitions

/-- Lengths are representable. -/
structure DeleteRecordsTopic21.Fits (version : Int16) (t : DeleteRecordsTopic21) : Prop where
  Name : FitsString t.Name
  Partitions : FitsAll (DeleteRecordsPartition21.Fits version) t.Partitions

/-- The value after `t` has been decoded into `t0`. -/
def DeleteRecordsTopic21.seen (version : Int16) (t _t0 : DeleteRecordsTopic21) : DeleteRecordsTopic21 :=
  { Name := t.Name,
    Partitions := some (t.Partitions.elems.map fun x => x.seen version {}) }

/-- Nothing in `t` is lost at this version. -/
structure DeleteRecordsTopic21.Canon (version : Int16) (t : DeleteRecordsTopic21) : Prop where
  Partitions : CanonAll (DeleteRecordsPartition21.Canon version) t.Partitions

/-- The specification of `DeleteRecordsTopic21`. -/
def DeleteRecordsTopic21.layout : Layout DeleteRecordsTopic21.type :=
  { wire := DeleteRecordsTopic21.wire, Fits := DeleteRecordsTopic21.Fits, seen := DeleteRecordsTopic21.seen, Canon := DeleteRecordsTopic21.Canon }

/-- Wire format of `DeleteRecordsRequest`. -/
def DeleteRecordsRequest.wire (version : Int16) (t : DeleteRecordsRequest) : List Byte :=
  Wire.array (DeleteRecordsTopic21.wire version) t.Topics ++
  Wire.int32 t.TimeoutMs

/-- Lengths are representable. -/
structure DeleteRecordsRequest.Fits (version : Int16) (t : DeleteRecordsRequest) : Prop where
  Topics : FitsAll (DeleteRecordsTopic21.Fits version) t.Topics

/-- The value after `t` has been decoded into `t0`. -/
def DeleteRecordsRequest.seen (version : Int16) (t _t0 : DeleteRecordsRequest) : DeleteRecordsRequest :=
  { Topics := some (t.Topics.elems.map fun x => x.seen version {}),
    TimeoutMs := t.TimeoutMs }

/-- Nothing in `t` is lost at this version. -/
structure DeleteRecordsRequest.Canon (version : Int16) (t : DeleteRecordsRequest) : Prop where
  Topics : CanonAll (DeleteRecordsTopic21.Canon version) t.Topics

/-- The specification of `DeleteRecordsRequest`. -/
def DeleteRecordsRequest.layout : Layout DeleteRecordsRequest.type :=
  { wire := DeleteRecordsRequest.wire, Fits := DeleteRecordsRequest.Fits, seen := DeleteRecordsRequest.seen, Canon := DeleteRecordsRequest.Canon }

/-- Wire format of `DeleteRecordsPartitionResult21`. -/
def DeleteRecordsPartitionResult21.wire (_version : Int16) (t : DeleteRecordsPartitionResult21) : List Byte :=
  Wire.int32 t.PartitionIndex ++
  Wire.int64 t.LowWatermark ++
  Wire.int16 t.ErrorCode

/-- No field has a length prefix. -/
def DeleteRecordsPartitionResult21.Fits (_version : Int16) (_t : DeleteRecordsPartitionResult21) : Prop := True

/-- The value after `t` has been decoded into `t0`. -/
def DeleteRecordsPartitionResult21.seen (_version : Int16) (t _t0 : DeleteRecordsPartitionResult21) : DeleteRecordsPartitionResult21 :=
  { PartitionIndex := t.PartitionIndex,
    LowWatermark := t.LowWatermark,
    ErrorCode := t.ErrorCode }

/-- Nothing can be lost. -/
def DeleteRecordsPartitionResult21.Canon (_version : Int16) (_t : DeleteRecordsPartitionResult21) : Prop := True

/-- The specification of `DeleteRecordsPartitionResult21`. -/
def DeleteRecordsPartitionResult21.layout : Layout DeleteRecordsPartitionResult21.type :=
  { wire := DeleteRecordsPartitionResult21.wire, Fits := DeleteRecordsPartitionResult21.Fits, seen := DeleteRecordsPartitionResult21.seen, Canon := DeleteRecordsPartitionResult21.Canon }

/-- Wire format of `DeleteRecordsTopicResult21`. -/
def DeleteRecordsTopicResult21.wire (version : Int16) (t : DeleteRecordsTopicResult21) : List Byte :=
  Wire.string t.Name ++
  Wire.array (DeleteRecordsPartitionResult21.wire version) t.Partitions

/-- Lengths are representable. -/
structure DeleteRecordsTopicResult21.Fits (version : Int16) (t : DeleteRecordsTopicResult21) : Prop where
  Name : FitsString t.Name
  Partitions : FitsAll (DeleteRecordsPartitionResult21.Fits version) t.Partitions

/-- The value after `t` has been decoded into `t0`. -/
def DeleteRecordsTopicResult21.seen (version : Int16) (t _t0 : DeleteRecordsTopicResult21) : DeleteRecordsTopicResult21 :=
  { Name := t.Name,
    Partitions := some (t.Partitions.elems.map fun x => x.seen version {}) }

/-- Nothing in `t` is lost at this version. -/
structure DeleteRecordsTopicResult21.Canon (version : Int16) (t : DeleteRecordsTopicResult21) : Prop where
  Partitions : CanonAll (DeleteRecordsPartitionResult21.Canon version) t.Partitions

/-- The specification of `DeleteRecordsTopicResult21`. -/
def DeleteRecordsTopicResult21.layout : Layout DeleteRecordsTopicResult21.type :=
  { wire := DeleteRecordsTopicResult21.wire, Fits := DeleteRecordsTopicResult21.Fits, seen := DeleteRecordsTopicResult21.seen, Canon := DeleteRecordsTopicResult21.Canon }

/-- Wire format of `DeleteRecordsResponse`. -/
def DeleteRecordsResponse.wire (version : Int16) (t : DeleteRecordsResponse) : List Byte :=
  Wire.int32 t.ThrottleTimeMs ++
  Wire.array (DeleteRecordsTopicResult21.wire version) t.Topics

/-- Lengths are representable. -/
structure DeleteRecordsResponse.Fits (version : Int16) (t : DeleteRecordsResponse) : Prop where
  Topics : FitsAll (DeleteRecordsTopicResult21.Fits version) t.Topics

/-- The value after `t` has been decoded into `t0`. -/
def DeleteRecordsResponse.seen (version : Int16) (t _t0 : DeleteRecordsResponse) : DeleteRecordsResponse :=
  { ThrottleTimeMs := t.ThrottleTimeMs,
    Topics := some (t.Topics.elems.map fun x => x.seen version {}) }

/-- Nothing in `t` is lost at this version. -/
structure DeleteRecordsResponse.Canon (version : Int16) (t : DeleteRecordsResponse) : Prop where
  Topics : CanonAll (DeleteRecordsTopicResult21.Canon version) t.Topics

/-- The specification of `DeleteRecordsResponse`. -/
def DeleteRecordsResponse.layout : Layout DeleteRecordsResponse.type :=
  { wire := DeleteRecordsResponse.wire, Fits := DeleteRecordsResponse.Fits, seen := DeleteRecordsResponse.seen, Canon := DeleteRecordsResponse.Canon }

end Kafka.Msg
