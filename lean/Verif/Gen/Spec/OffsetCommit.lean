import Verif.Message.Layout
import Verif.Gen.Model.OffsetCommit
/-!
Generated by tools/gen_messages.py: specification of the OffsetCommit messages.
-/
namespace Kafka.Msg

/-- Wire format of `OffsetCommitRequestPartition8`. -/
def OffsetCommitRequestPartition8.wire (version : Int16) (t : OffsetCommitRequestPartition8) : List Byte :=
  Wire.int32 t.PartitionIndex ++
  Wire.int64 t.CommittedOffset ++
  Wire.when (version ≥ 6) (Wire.int32 t.CommittedLeaderEpoch) ++
  Wire.string t.CommittedMetadata

/-- Lengths are representable. -/
structure OffsetCommitRequestPartition8.Fits (version : Int16) (t : OffsetCommitRequestPartition8) : Prop where
  CommittedMetadata : FitsString t.CommittedMetadata

/-- The value after `t` has been decoded into `t0`. -/
def OffsetCommitRequestPartition8.seen (version : Int16) (t t0 : OffsetCommitRequestPartition8) : OffsetCommitRequestPartition8 :=
  { PartitionIndex := t.PartitionIndex,
    CommittedOffset := t.CommittedOffset,
    CommittedLeaderEpoch := if version ≥ 6 then t.CommittedLeaderEpoch else t0.CommittedLeaderEpoch,
    CommittedMetadata := t.CommittedMetadata }

/-- Nothing in `t` is lost at this version. -/
structure OffsetCommitRequestPartition8.Canon (version : Int16) (t : OffsetCommitRequestPartition8) : Prop where
  CommittedLeaderEpoch : ¬(version ≥ 6) → t.CommittedLeaderEpoch = 0

/-- The specification of `OffsetCommitRequestPartition8`. -/
def OffsetCommitRequestPartition8.layout : Layout OffsetCommitRequestPartition8.type :=
  { wire := OffsetCommitRequestPartition8.wire, Fits := OffsetCommitRequestPartition8.Fits, seen := OffsetCommitRequestPartition8.seen, Canon := OffsetCommitRequestPartition8.Canon }

/-- Wire format of `OffsetCommitRequestTopic8`. -/
def OffsetCommitRequestTopic8.wire (version : Int16) (t : OffsetCommitRequestTopic8) : List Byte :=
  Wire.string t.Name ++
  Wire.array (OffsetCommitRequestPartition8.wire version) t.Partitions

/-- Lengths are representable. -/
structure OffsetCommitRequestTopic8.Fits (version : Int16) (t : OffsetCommitRequestTopic8) : Prop where
  Name : FitsString t.Name
  Partitions : FitsAll (OffsetCommitRequestPartition8.Fits version) t.Partitions

/-- The value after `t` has been decoded into `t0`. -/
def OffsetCommitRequestTopic8.seen (version : Int16) (t _t0 : OffsetCommitRequestTopic8) : OffsetCommitRequestTopic8 :=
  { Name := t.Name,
    Partitions := some (t.Partitions.elems.map fun x => x.seen version {}) }

/-- Nothing in `t` is lost at this version. -/
structure OffsetCommitRequestTopic8.Canon (version : Int16) (t : OffsetCommitRequestTopic8) : Prop where
  Partitions : CanonAll (OffsetCommitRequestPartition8.Canon version) t.Partitions

/-- The specification of `OffsetCommitRequestTopic8`. -/
def OffsetCommitRequestTopic8.layout : Layout OffsetCommitRequestTopic8.type :=
  { wire := OffsetCommitRequestTopic8.wire, Fits := OffsetCommitRequestTopic8.Fits, seen := OffsetCommitRequestTopic8.seen, Canon := OffsetCommitRequestTopic8.Canon }

/-- Wire format of `OffsetCommitRequest`. -/
def OffsetCommitRequest.wire (version : Int16) (t : OffsetCommitRequest) : List Byte :=
  Wire.string t.GroupId ++
  Wire.when (version ≥ 1) (Wire.int32 t.GenerationId) ++
  Wire.when (version ≥ 1) (Wire.string t.MemberId) ++
  Wire.when (version ≥ 7) (Wire.string t.GroupInstanceId) ++
  Wire.when (version ≥ 2 ∧ version ≤ 4) (Wire.int64 t.RetentionTimeMs) ++
  Wire.array (OffsetCommitRequestTopic8.wire version) t.Topics

/-- Lengths are representable. -/
structure OffsetCommitRequest.Fits (version : Int16) (t : OffsetCommitRequest) : Prop where
  GroupId : FitsString t.GroupId
  MemberId : version ≥ 1 → FitsString t.MemberId
  GroupInstanceId : version ≥ 7 → FitsString t.GroupInstanceId
  Topics : FitsAll (OffsetCommitRequestTopic8.Fits version) t.Topics

/-- The value after `t` has been decoded into `t0`. -/
def OffsetCommitRequest.seen (version : Int16) (t t0 : OffsetCommitRequest) : OffsetCommitRequest :=
  { GroupId := t.GroupId,
    GenerationId := if version ≥ 1 then t.GenerationId else t0.GenerationId,
    MemberId := if version ≥ 1 then t.MemberId else t0.MemberId,
    GroupInstanceId := if version ≥ 7 then t.GroupInstanceId else t0.GroupInstanceId,
    RetentionTimeMs := if version ≥ 2 ∧ version ≤ 4 then t.RetentionTimeMs else t0.RetentionTimeMs,
    Topics := some (t.Topics.elems.map fun x => x.seen version {}) }

/-- Nothing in `t` is lost at this version. -/
structure OffsetCommitRequest.Canon (version : Int16) (t : OffsetCommitRequest) : Prop where
  GenerationId : ¬(version ≥ 1) → t.GenerationId = 0
  MemberId : ¬(version ≥ 1) → t.MemberId = []
  GroupInstanceId : ¬(version ≥ 7) → t.GroupInstanceId = []
  RetentionTimeMs : ¬(version ≥ 2 ∧ version ≤ 4) → t.RetentionTimeMs = 0
  Topics : CanonAll (OffsetCommitRequestTopic8.Canon version) t.Topics

/-- The specification of `OffsetCommitRequest`. -/
def OffsetCommitRequest.layout : Layout OffsetCommitRequest.type :=
  { wire := OffsetCommitRequest.wire, Fits := OffsetCommitRequest.Fits, seen := OffsetCommitRequest.seen, Canon := OffsetCommitRequest.Canon }

/-- Wire format of `OffsetCommitResponsePartition8`. -/
def OffsetCommitResponsePartition8.wire (_version : Int16) (t : OffsetCommitResponsePartition8) : List Byte :=
  Wire.int32 t.PartitionIndex ++
  Wire.int16 t.ErrorCode

/-- No field has a length prefix. -/
def OffsetCommitResponsePartition8.Fits (_version : Int16) (_t : OffsetCommitResponsePartition8) : Prop := True

/-- The value after `t` has been decoded into `t0`. -/
def OffsetCommitResponsePartition8.seen (_version : Int16) (t _t0 : OffsetCommitResponsePartition8) : OffsetCommitResponsePartition8 :=
  { PartitionIndex := t.PartitionIndex,
    ErrorCode := t.ErrorCode }

/-- Nothing can be lost. -/
def OffsetCommitResponsePartition8.Canon (_version : Int16) (_t : OffsetCommitResponsePartition8) : Prop := True

/-- The specification of `OffsetCommitResponsePartition8`. -/
def OffsetCommitResponsePartition8.layout : Layout OffsetCommitResponsePartition8.type :=
  { wire := OffsetCommitResponsePartition8.wire, Fits := OffsetCommitResponsePartition8.Fits, seen := OffsetCommitResponsePartition8.seen, Canon := OffsetCommitResponsePartition8.Canon }

/-- Wire format of `OffsetCommitResponseTopic8`. -/
def OffsetCommitResponseTopic8.wire (version : Int16) (t : OffsetCommitResponseTopic8) : List Byte :=
  Wire.string t.Name ++
  Wire.array (OffsetCommitResponsePartition8.wire version) t.Partitions

/-- Lengths are representable. -/
structure OffsetCommitResponseTopic8.Fits (version : Int16) (t : OffsetCommitResponseTopic8) : Prop where
  Name : FitsString t.Name
  Partitions : FitsAll (OffsetCommitResponsePartition8.Fits version) t.Partitions

/-- The value after `t` has been decoded into `t0`. -/
def OffsetCommitResponseTopic8.seen (version : Int16) (t _t0 : OffsetCommitResponseTopic8) : OffsetCommitResponseTopic8 :=
  { Name := t.Name,
    Partitions := some (t.Partitions.elems.map fun x => x.seen version {}) }

/-- Nothing in `t` is lost at this version. -/
structure OffsetCommitResponseTopic8.Canon (version : Int16) (t : OffsetCommitResponseTopic8) : Prop where
  Partitions : CanonAll (OffsetCommitResponsePartition8.Canon version) t.Partitions

/-- The specification of `OffsetCommitResponseTopic8`. -/
def OffsetCommitResponseTopic8.layout : Layout OffsetCommitResponseTopic8.type :=
  { wire := OffsetCommitResponseTopic8.wire, Fits := OffsetCommitResponseTopic8.Fits, seen := OffsetCommitResponseTopic8.seen, Canon := OffsetCommitResponseTopic8.Canon }

/-- Wire format of `OffsetCommitResponse`. -/
def OffsetCommitResponse.wire (version : Int16) (t : OffsetCommitResponse) : List Byte :=
  Wire.when (version ≥ 3) (Wire.int32 t.ThrottleTimeMs) ++
  Wire.array (OffsetCommitResponseTopic8.wire version) t.Topics

/-- Lengths are representable. -/
structure OffsetCommitResponse.Fits (version : Int16) (t : OffsetCommitResponse) : Prop where
  Topics : FitsAll (OffsetCommitResponseTopic8.Fits version) t.Topics

/-- The value after `t` has been decoded into `t0`. -/
def OffsetCommitResponse.seen (version : Int16) (t t0 : OffsetCommitResponse) : OffsetCommitResponse :=
  { ThrottleTimeMs := if version ≥ 3 then t.ThrottleTimeMs else t0.ThrottleTimeMs,
    Topics := some (t.Topics.elems.map fun x => x.seen version {}) }

/-- Nothing in `t` is lost at this version. -/
structure OffsetCommitResponse.Canon (version : Int16) (t : OffsetCommitResponse) : Prop where
  ThrottleTimeMs : ¬(version ≥ 3) → t.ThrottleTimeMs = 0
  Topics : CanonAll (OffsetCommitResponseTopic8.Canon version) t.Topics

/-- The specification of `OffsetCommitResponse`. -/
def OffsetCommitResponse.layout : Layout OffsetCommitResponse.type :=
  { wire := OffsetCommitResponse.wire, Fits := OffsetCommitResponse.Fits, seen := OffsetCommitResponse.seen, Canon := OffsetCommitResponse.Canon }

end Kafka.Msg
