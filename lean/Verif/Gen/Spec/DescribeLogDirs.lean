import Verif.Message.Layout
import Verif.Gen.Model.DescribeLogDirs
/-!
Generated by tools/gen_messages.py: specification of the DescribeLogDirs messages.
-/
namespace Kafka.Msg

/-- Wire format of `DescribableLogDirTopic35`. -/
def DescribableLogDirTopic35.wire (_version : Int16) (t : DescribableLogDirTopic35) : List Byte :=
  Wire.string t.Topic ++
  Wire.int32Array t.PartitionIndex

/-- Lengths are representable. -/
structure DescribableLogDirTopic35.Fits (version : Int16) (t : DescribableLogDirTopic35) : Prop where
  Topic : FitsString t.Topic
  PartitionIndex : FitsSlice t.PartitionIndex

/-- The value after `t` has been decoded into `t0`. -/
def DescribableLogDirTopic35.seen (_version : Int16) (t _t0 : DescribableLogDirTopic35) : DescribableLogDirTopic35 :=
  { Topic := t.Topic,
    PartitionIndex := t.PartitionIndex }

/-- Nothing can be lost. -/
def DescribableLogDirTopic35.Canon (_version : Int16) (_t : DescribableLogDirTopic35) : Prop := True

/-- The specification of `DescribableLogDirTopic35`. -/
def DescribableLogDirTopic35.layout : Layout DescribableLogDirTopic35.type :=
  { wire := DescribableLogDirTopic35.wire, Fits := DescribableLogDirTopic35.Fits, seen := DescribableLogDirTopic35.seen, Canon := DescribableLogDirTopic35.Canon }

/-- Wire format of `DescribeLogDirsRequest`. -/
def DescribeLogDirsRequest.wire (version : Int16) (t : DescribeLogDirsRequest) : List Byte :=
  Wire.array (DescribableLogDirTopic35.wire version) t.Topics

/-- Lengths are representable. -/
structure DescribeLogDirsRequest.Fits (version : Int16) (t : DescribeLogDirsRequest) : Prop where
  Topics : FitsAll (DescribableLogDirTopic35.Fits version) t.Topics

/-- The value after `t` has been decoded into `t0`. -/
def DescribeLogDirsRequest.seen (version : Int16) (t _t0 : DescribeLogDirsRequest) : DescribeLogDirsRequest :=
  { Topics := some (t.Topics.elems.map fun x => x.seen version {}) }

/-- Nothing in `t` is lost at this version. -/
structure DescribeLogDirsRequest.Canon (version : Int16) (t : DescribeLogDirsRequest) : Prop where
  Topics : CanonAll (DescribableLogDirTopic35.Canon version) t.Topics

/-- The specification of `DescribeLogDirsRequest`. -/
def DescribeLogDirsRequest.layout : Layout DescribeLogDirsRequest.type :=
  { wire := DescribeLogDirsRequest.wire, Fits := DescribeLogDirsRequest.Fits, seen := DescribeLogDirsRequest.seen, Canon := DescribeLogDirsRequest.Canon }

/-- Wire format of `DescribeLogDirsPartition35`. -/
def DescribeLogDirsPartition35.wire (_version : Int16) (t : DescribeLogDirsPartition35) : List Byte :=
  Wire.int32 t.PartitionIndex ++
  Wire.int64 t.PartitionSize ++
  Wire.int64 t.OffsetLag ++
  Wire.bool t.IsFutureKey

/-- No field has a length prefix. -/
def DescribeLogDirsPartition35.Fits (_version : Int16) (_t : DescribeLogDirsPartition35) : Prop := True

/-- The value after `t` has been decoded into `t0`. -/
def DescribeLogDirsPartition35.seen (_version : Int16) (t _t0 : DescribeLogDirsPartition35) : DescribeLogDirsPartition35 :=
  { PartitionIndex := t.PartitionIndex,
    PartitionSize := t.PartitionSize,
    OffsetLag := t.OffsetLag,
    IsFutureKey := t.IsFutureKey }

/-- Nothing can be lost. -/
def DescribeLogDirsPartition35.Canon (_version : Int16) (_t : DescribeLogDirsPartition35) : Prop := True

/-- The specification of `DescribeLogDirsPartition35`. -/
def DescribeLogDirsPartition35.layout : Layout DescribeLogDirsPartition35.type :=
  { wire := DescribeLogDirsPartition35.wire, Fits := DescribeLogDirsPartition35.Fits, seen := DescribeLogDirsPartition35.seen, Canon := DescribeLogDirsPartition35.Canon }

/-- Wire format of `DescribeLogDirsTopic35`. -/
def DescribeLogDirsTopic35.wire (version : Int16) (t : DescribeLogDirsTopic35) : List Byte :=
  Wire.string t.Name ++
  Wire.array (DescribeLogDirsPartition35.wire version) t.Partitions

/-- Lengths are representable. -/
structure DescribeLogDirsTopic35.Fits (version : Int16) (t : DescribeLogDirsTopic35) : Prop where
  Name : FitsString t.Name
  Partitions : FitsAll (DescribeLogDirsPartition35.Fits version) t.Partitions

/-- The value after `t` has been decoded into `t0`. -/
def DescribeLogDirsTopic35.seen (version : Int16) (t _t0 : DescribeLogDirsTopic35) : DescribeLogDirsTopic35 :=
  { Name := t.Name,
    Partitions := some (t.Partitions.elems.map fun x => x.seen version {}) }

/-- Nothing in `t` is lost at this version. -/
structure DescribeLogDirsTopic35.Canon (version : Int16) (t : DescribeLogDirsTopic35) : Prop where
  Partitions : CanonAll (DescribeLogDirsPartition35.Canon version) t.Partitions

/-- The specification of `DescribeLogDirsTopic35`. -/
def DescribeLogDirsTopic35.layout : Layout DescribeLogDirsTopic35.type :=
  { wire := DescribeLogDirsTopic35.wire, Fits := DescribeLogDirsTopic35.Fits, seen := DescribeLogDirsTopic35.seen, Canon := DescribeLogDirsTopic35.Canon }

/-- Wire format of `DescribeLogDirsResult35`. -/
def DescribeLogDirsResult35.wire (version : Int16) (t : DescribeLogDirsResult35) : List Byte :=
  Wire.int16 t.ErrorCode ++
  Wire.string t.LogDir ++
  Wire.array (DescribeLogDirsTopic35.wire version) t.Topics

/-- Lengths are representable. -/
structure DescribeLogDirsResult35.Fits (version : Int16) (t : DescribeLogDirsResult35) : Prop where
  LogDir : FitsString t.LogDir
  Topics : FitsAll (DescribeLogDirsTopic35.Fits version) t.Topics

/-- The value after `t` has been decoded into `t0`. -/
def DescribeLogDirsResult35.seen (version : Int16) (t _t0 : DescribeLogDirsResult35) : DescribeLogDirsResult35 :=
  { ErrorCode := t.ErrorCode,
    LogDir := t.LogDir,
    Topics := some (t.Topics.elems.map fun x => x.seen version {}) }

/-- Nothing in `t` is lost at this version. -/
structure DescribeLogDirsResult35.Canon (version : Int16) (t : DescribeLogDirsResult35) : Prop where
  Topics : CanonAll (DescribeLogDirsTopic35.Canon version) t.Topics

/-- The specification of `DescribeLogDirsResult35`. -/
def DescribeLogDirsResult35.layout : Layout DescribeLogDirsResult35.type :=
  { wire := DescribeLogDirsResult35.wire, Fits := DescribeLogDirsResult35.Fits, seen := DescribeLogDirsResult35.seen, Canon := DescribeLogDirsResult35.Canon }

/-- Wire format of `DescribeLogDirsResponse`. -/
def DescribeLogDirsResponse.wire (version : Int16) (t : DescribeLogDirsResponse) : List Byte :=
  Wire.int32 t.ThrottleTimeMs ++
  Wire.array (DescribeLogDirsResult35.wire version) t.Results

/-- Lengths are representable. -/
structure DescribeLogDirsResponse.Fits (version : Int16) (t : DescribeLogDirsResponse) : Prop where
  Results : FitsAll (DescribeLogDirsResult35.Fits version) t.Results

/-- The value after `t` has been decoded into `t0`. -/
def DescribeLogDirsResponse.seen (version : Int16) (t _t0 : DescribeLogDirsResponse) : DescribeLogDirsResponse :=
  { ThrottleTimeMs := t.ThrottleTimeMs,
    Results := some (t.Results.elems.map fun x => x.seen version {}) }

/-- Nothing in `t` is lost at this version. -/
structure DescribeLogDirsResponse.Canon (version : Int16) (t : DescribeLogDirsResponse) : Prop where
  Results : CanonAll (DescribeLogDirsResult35.Canon version) t.Results

/-- The specification of `DescribeLogDirsResponse`. -/
def DescribeLogDirsResponse.layout : Layout DescribeLogDirsResponse.type :=
  { wire := DescribeLogDirsResponse.wire, Fits := DescribeLogDirsResponse.Fits, seen := DescribeLogDirsResponse.seen, Canon := DescribeLogDirsResponse.Canon }

end Kafka.Msg
