import Verif.Message.Layout
import Verif.Gen.Model.AlterReplicaLogDirs
/-!
Generated by tools/gen_messages.py: specification of the AlterReplicaLogDirs messages.
-/
namespace Kafka.Msg

/-- Wire format of `AlterReplicaLogDirTopic34`. -/
def AlterReplicaLogDirTopic34.wire (_version : Int16) (t : AlterReplicaLogDirTopic34) : List Byte :=
  Wire.string t.Name ++
  Wire.int32Array t.Partitions

/-- Lengths are representable. -/
structure AlterReplicaLogDirTopic34.Fits (version : Int16) (t : AlterReplicaLogDirTopic34) : Prop where
  Name : FitsString t.Name
  Partitions : FitsSlice t.Partitions

/-- The value after `t` has been decoded into `t0`. -/
def AlterReplicaLogDirTopic34.seen (_version : Int16) (t _t0 : AlterReplicaLogDirTopic34) : AlterReplicaLogDirTopic34 :=
  { Name := t.Name,
    Partitions := t.Partitions }

/-- Nothing can be lost. -/
def AlterReplicaLogDirTopic34.Canon (_version : Int16) (_t : AlterReplicaLogDirTopic34) : Prop := True

/-- The specification of `AlterReplicaLogDirTopic34`. -/
def AlterReplicaLogDirTopic34.layout : Layout AlterReplicaLogDirTopic34.type :=
  { wire := AlterReplicaLogDirTopic34.wire, Fits := AlterReplicaLogDirTopic34.Fits, seen := AlterReplicaLogDirTopic34.seen, Canon := AlterReplicaLogDirTopic34.Canon }

/-- Wire format of `AlterReplicaLogDir34`. -/
def AlterReplicaLogDir34.wire (version : Int16) (t : AlterReplicaLogDir34) : List Byte :=
  Wire.string t.Path ++
  Wire.array (AlterReplicaLogDirTopic34.wire version) t.Topics

/-- Lengths are representable. -/
structure AlterReplicaLogDir34.Fits (version : Int16) (t : AlterReplicaLogDir34) : Prop where
  Path : FitsString t.Path
  Topics : FitsAll (AlterReplicaLogDirTopic34.Fits version) t.Topics

/-- The value after `t` has been decoded into `t0`. -/
def AlterReplicaLogDir34.seen (version : Int16) (t _t0 : AlterReplicaLogDir34) : AlterReplicaLogDir34 :=
  { Path := t.Path,
    Topics := some (t.Topics.elems.map fun x => x.seen version {}) }

/-- Nothing in `t` is lost at this version. -/
structure AlterReplicaLogDir34.Canon (version : Int16) (t : AlterReplicaLogDir34) : Prop where
  Topics : CanonAll (AlterReplicaLogDirTopic34.Canon version) t.Topics

/-- The specification of `AlterReplicaLogDir34`. -/
def AlterReplicaLogDir34.layout : Layout AlterReplicaLogDir34.type :=
  { wire := AlterReplicaLogDir34.wire, Fits := AlterReplicaLogDir34.Fits, seen := AlterReplicaLogDir34.seen, Canon := AlterReplicaLogDir34.Canon }

/-- Wire format of `AlterReplicaLogDirsRequest`. -/
def AlterReplicaLogDirsRequest.wire (version : Int16) (t : AlterReplicaLogDirsRequest) : List Byte :=
  Wire.array (AlterReplicaLogDir34.wire version) t.Dirs

/-- Lengths are representable. -/
structure AlterReplicaLogDirsRequest.Fits (version : Int16) (t : AlterReplicaLogDirsRequest) : Prop where
  Dirs : FitsAll (AlterReplicaLogDir34.Fits version) t.Dirs

/-- The value after `t` has been decoded into `t0`. -/
def AlterReplicaLogDirsRequest.seen (version : Int16) (t _t0 : AlterReplicaLogDirsRequest) : AlterReplicaLogDirsRequest :=
  { Dirs := some (t.Dirs.elems.map fun x => x.seen version {}) }

/-- Nothing in `t` is lost at this version. -/
structure AlterReplicaLogDirsRequest.Canon (version : Int16) (t : AlterReplicaLogDirsRequest) : Prop where
  Dirs : CanonAll (AlterReplicaLogDir34.Canon version) t.Dirs

/-- The specification of `AlterReplicaLogDirsRequest`. -/
def AlterReplicaLogDirsRequest.layout : Layout AlterReplicaLogDirsRequest.type :=
  { wire := AlterReplicaLogDirsRequest.wire, Fits := AlterReplicaLogDirsRequest.Fits, seen := AlterReplicaLogDirsRequest.seen, Canon := AlterReplicaLogDirsRequest.Canon }

/-- Wire format of `AlterReplicaLogDirPartitionResult34`. -/
def AlterReplicaLogDirPartitionResult34.wire (_version : Int16) (t : AlterReplicaLogDirPartitionResult34) : List Byte :=
  Wire.int32 t.PartitionIndex ++
  Wire.int16 t.ErrorCode

/-- No field has a length prefix. -/
def AlterReplicaLogDirPartitionResult34.Fits (_version : Int16) (_t : AlterReplicaLogDirPartitionResult34) : Prop := True

/-- The value after `t` has been decoded into `t0`. -/
def AlterReplicaLogDirPartitionResult34.seen (_version : Int16) (t _t0 : AlterReplicaLogDirPartitionResult34) : AlterReplicaLogDirPartitionResult34 :=
  { PartitionIndex := t.PartitionIndex,
    ErrorCode := t.ErrorCode }

/-- Nothing can be lost. -/
def AlterReplicaLogDirPartitionResult34.Canon (_version : Int16) (_t : AlterReplicaLogDirPartitionResult34) : Prop := True

/-- The specification of `AlterReplicaLogDirPartitionResult34`. -/
def AlterReplicaLogDirPartitionResult34.layout : Layout AlterReplicaLogDirPartitionResult34.type :=
  { wire := AlterReplicaLogDirPartitionResult34.wire, Fits := AlterReplicaLogDirPartitionResult34.Fits, seen := AlterReplicaLogDirPartitionResult34.seen, Canon := AlterReplicaLogDirPartitionResult34.Canon }

/-- Wire format of `AlterReplicaLogDirTopicResult34`. -/
def AlterReplicaLogDirTopicResult34.wire (version : Int16) (t : AlterReplicaLogDirTopicResult34) : List Byte :=
  Wire.string t.TopicName ++
  Wire.array (AlterReplicaLogDirPartitionResult34.wire version) t.Partitions

/-- Lengths are representable. -/
structure AlterReplicaLogDirTopicResult34.Fits (version : Int16) (t : AlterReplicaLogDirTopicResult34) : Prop where
  TopicName : FitsString t.TopicName
  Partitions : FitsAll (AlterReplicaLogDirPartitionResult34.Fits version) t.Partitions

/-- The value after `t` has been decoded into `t0`. -/
def AlterReplicaLogDirTopicResult34.seen (version : Int16) (t _t0 : AlterReplicaLogDirTopicResult34) : AlterReplicaLogDirTopicResult34 :=
  { TopicName := t.TopicName,
    Partitions := some (t.Partitions.elems.map fun x => x.seen version {}) }

/-- Nothing in `t` is lost at this version. -/
structure AlterReplicaLogDirTopicResult34.Canon (version : Int16) (t : AlterReplicaLogDirTopicResult34) : Prop where
  Partitions : CanonAll (AlterReplicaLogDirPartitionResult34.Canon version) t.Partitions

/-- The specification of `AlterReplicaLogDirTopicResult34`. -/
def AlterReplicaLogDirTopicResult34.layout : Layout AlterReplicaLogDirTopicResult34.type :=
  { wire := AlterReplicaLogDirTopicResult34.wire, Fits := AlterReplicaLogDirTopicResult34.Fits, seen := AlterReplicaLogDirTopicResult34.seen, Canon := AlterReplicaLogDirTopicResult34.Canon }

/-- Wire format of `AlterReplicaLogDirsResponse`. -/
def AlterReplicaLogDirsResponse.wire (version : Int16) (t : AlterReplicaLogDirsResponse) : List Byte :=
  Wire.int32 t.ThrottleTimeMs ++
  Wire.array (AlterReplicaLogDirTopicResult34.wire version) t.Results

/-- Lengths are representable. -/
structure AlterReplicaLogDirsResponse.Fits (version : Int16) (t : AlterReplicaLogDirsResponse) : Prop where
  Results : FitsAll (AlterReplicaLogDirTopicResult34.Fits version) t.Results

/-- The value after `t` has been decoded into `t0`. -/
def AlterReplicaLogDirsResponse.seen (version : Int16) (t _t0 : AlterReplicaLogDirsResponse) : AlterReplicaLogDirsResponse :=
  { ThrottleTimeMs := t.ThrottleTimeMs,
    Results := some (t.Results.elems.map fun x => x.seen version {}) }

/-- Nothing in `t` is lost at this version. -/
structure AlterReplicaLogDirsResponse.Canon (version : Int16) (t : AlterReplicaLogDirsResponse) : Prop where
  Results : CanonAll (AlterReplicaLogDirTopicResult34.Canon version) t.Results

/-- The specification of `AlterReplicaLogDirsResponse`. -/
def AlterReplicaLogDirsResponse.layout : Layout AlterReplicaLogDirsResponse.type :=
  { wire := AlterReplicaLogDirsResponse.wire, Fits := AlterReplicaLogDirsResponse.Fits, seen := AlterReplicaLogDirsResponse.seen, Canon := AlterReplicaLogDirsResponse.Canon }

end Kafka.Msg
