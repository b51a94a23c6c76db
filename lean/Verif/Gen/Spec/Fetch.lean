import Verif.Message.Layout
import Verif.Gen.Model.Fetch
/-!
Generated by tools/gen_messages.py: specification of the Fetch messages.
-/
namespace Kafka.Msg

/-- Wire format of `FetchPartition1`. -/
def FetchPartition1.wire (version : Int16) (t : FetchPartition1) : List Byte :=
  Wire.int32 t.PartitionIndex ++
  Wire.when (version ≥ 9) (Wire.int32 t.CurrentLeaderEpoch) ++
  Wire.int64 t.FetchOffset ++
  Wire.when (version ≥ 5) (Wire.int64 t.LogStartOffset) ++
  Wire.int32 t.MaxBytes

/-- No field has a length prefix. -/
def FetchPartition1.Fits (_version : Int16) (_t : FetchPartition1) : Prop := True

/-- The value after `t` has been decoded into `t0`. -/
def FetchPartition1.seen (version : Int16) (t t0 : FetchPartition1) : FetchPartition1 :=
  { PartitionIndex := t.PartitionIndex,
    CurrentLeaderEpoch := if version ≥ 9 then t.CurrentLeaderEpoch else t0.CurrentLeaderEpoch,
    FetchOffset := t.FetchOffset,
    LogStartOffset := if version ≥ 5 then t.LogStartOffset else t0.LogStartOffset,
    MaxBytes := t.MaxBytes }

/-- Nothing in `t` is lost at this version. -/
structure FetchPartition1.Canon (version : Int16) (t : FetchPartition1) : Prop where
  CurrentLeaderEpoch : ¬(version ≥ 9) → t.CurrentLeaderEpoch = 0
  LogStartOffset : ¬(version ≥ 5) → t.LogStartOffset = 0

/-- The specification of `FetchPartition1`. -/
def FetchPartition1.layout : Layout FetchPartition1.type :=
  { wire := FetchPartition1.wire, Fits := FetchPartition1.Fits, seen := FetchPartition1.seen, Canon := FetchPartition1.Canon }

/-- Wire format of `FetchableTopic1`. -/
def FetchableTopic1.wire (version : Int16) (t : FetchableTopic1) : List Byte :=
  Wire.string t.Name ++
  Wire.array (FetchPartition1.wire version) t.FetchPartitions

/-- Lengths are representable. -/
structure FetchableTopic1.Fits (version : Int16) (t : FetchableTopic1) : Prop where
  Name : FitsString t.Name
  FetchPartitions : FitsAll (FetchPartition1.Fits version) t.FetchPartitions

/-- The value after `t` has been decoded into `t0`. -/
def FetchableTopic1.seen (version : Int16) (t _t0 : FetchableTopic1) : FetchableTopic1 :=
  { Name := t.Name,
    FetchPartitions := some (t.FetchPartitions.elems.map fun x => x.seen version {}) }

/-- Nothing in `t` is lost at this version. -/
structure FetchableTopic1.Canon (version : Int16) (t : FetchableTopic1) : Prop where
  FetchPartitions : CanonAll (FetchPartition1.Canon version) t.FetchPartitions

/-- The specification of `FetchableTopic1`. -/
def FetchableTopic1.layout : Layout FetchableTopic1.type :=
  { wire := FetchableTopic1.wire, Fits := FetchableTopic1.Fits, seen := FetchableTopic1.seen, Canon := FetchableTopic1.Canon }

/-- Wire format of `ForgottenTopic1`. -/
def ForgottenTopic1.wire (version : Int16) (t : ForgottenTopic1) : List Byte :=
  Wire.when (version ≥ 7) (Wire.string t.Name) ++
  Wire.when (version ≥ 7) (Wire.int32Array t.ForgottenPartitionIndexes)

/-- Lengths are representable. -/
structure ForgottenTopic1.Fits (version : Int16) (t : ForgottenTopic1) : Prop where
  Name : version ≥ 7 → FitsString t.Name
  ForgottenPartitionIndexes : version ≥ 7 → FitsSlice t.ForgottenPartitionIndexes

/-- The value after `t` has been decoded into `t0`. -/
def ForgottenTopic1.seen (version : Int16) (t t0 : ForgottenTopic1) : ForgottenTopic1 :=
  { Name := if version ≥ 7 then t.Name else t0.Name,
    ForgottenPartitionIndexes := if version ≥ 7 then t.ForgottenPartitionIndexes else t0.ForgottenPartitionIndexes }

/-- Nothing in `t` is lost at this version. -/
structure ForgottenTopic1.Canon (version : Int16) (t : ForgottenTopic1) : Prop where
  Name : ¬(version ≥ 7) → t.Name = []
  ForgottenPartitionIndexes : ¬(version ≥ 7) → t.ForgottenPartitionIndexes = none

/-- The specification of `ForgottenTopic1`. -/
def ForgottenTopic1.layout : Layout ForgottenTopic1.type :=
  { wire := ForgottenTopic1.wire, Fits := ForgottenTopic1.Fits, seen := ForgottenTopic1.seen, Canon := ForgottenTopic1.Canon }

/-- Wire format of `FetchRequest`. -/
def FetchRequest.wire (version : Int16) (t : FetchRequest) : List Byte :=
  Wire.int32 t.ReplicaId ++
  Wire.int32 t.MaxWait ++
  Wire.int32 t.MinBytes ++
  Wire.when (version ≥ 3) (Wire.int32 t.MaxBytes) ++
  Wire.when (version ≥ 4) (Wire.int8 t.IsolationLevel) ++
  Wire.when (version ≥ 7) (Wire.int32 t.SessionId) ++
  Wire.when (version ≥ 7) (Wire.int32 t.Epoch) ++
  Wire.array (FetchableTopic1.wire version) t.Topics ++
  Wire.when (version ≥ 7) (Wire.array (ForgottenTopic1.wire version) t.Forgotten) ++
  Wire.when (version ≥ 11) (Wire.string t.RackId)

/-- Lengths are representable. -/
structure FetchRequest.Fits (version : Int16) (t : FetchRequest) : Prop where
  Topics : FitsAll (FetchableTopic1.Fits version) t.Topics
  Forgotten : version ≥ 7 → FitsAll (ForgottenTopic1.Fits version) t.Forgotten
  RackId : version ≥ 11 → FitsString t.RackId

/-- The value after `t` has been decoded into `t0`. -/
def FetchRequest.seen (version : Int16) (t t0 : FetchRequest) : FetchRequest :=
  { ReplicaId := t.ReplicaId,
    MaxWait := t.MaxWait,
    MinBytes := t.MinBytes,
    MaxBytes := if version ≥ 3 then t.MaxBytes else t0.MaxBytes,
    IsolationLevel := if version ≥ 4 then t.IsolationLevel else t0.IsolationLevel,
    SessionId := if version ≥ 7 then t.SessionId else t0.SessionId,
    Epoch := if version ≥ 7 then t.Epoch else t0.Epoch,
    Topics := some (t.Topics.elems.map fun x => x.seen version {}),
    Forgotten := if version ≥ 7 then some (t.Forgotten.elems.map fun x => x.seen version {}) else t0.Forgotten,
    RackId := if version ≥ 11 then t.RackId else t0.RackId }

/-- Nothing in `t` is lost at this version. -/
structure FetchRequest.Canon (version : Int16) (t : FetchRequest) : Prop where
  MaxBytes : ¬(version ≥ 3) → t.MaxBytes = 0
  IsolationLevel : ¬(version ≥ 4) → t.IsolationLevel = 0
  SessionId : ¬(version ≥ 7) → t.SessionId = 0
  Epoch : ¬(version ≥ 7) → t.Epoch = 0
  Topics : CanonAll (FetchableTopic1.Canon version) t.Topics
  Forgotten : (version ≥ 7 → CanonAll (ForgottenTopic1.Canon version) t.Forgotten) ∧ (¬(version ≥ 7) → t.Forgotten = none)
  RackId : ¬(version ≥ 11) → t.RackId = []

/-- The specification of `FetchRequest`. -/
def FetchRequest.layout : Layout FetchRequest.type :=
  { wire := FetchRequest.wire, Fits := FetchRequest.Fits, seen := FetchRequest.seen, Canon := FetchRequest.Canon }

/-- Wire format of `AbortedTransaction1`. -/
def AbortedTransaction1.wire (version : Int16) (t : AbortedTransaction1) : List Byte :=
  Wire.when (version ≥ 4) (Wire.int64 t.ProducerId) ++
  Wire.when (version ≥ 4) (Wire.int64 t.FirstOffset)

/-- No field has a length prefix. -/
def AbortedTransaction1.Fits (_version : Int16) (_t : AbortedTransaction1) : Prop := True

/-- The value after `t` has been decoded into `t0`. -/
def AbortedTransaction1.seen (version : Int16) (t t0 : AbortedTransaction1) : AbortedTransaction1 :=
  { ProducerId := if version ≥ 4 then t.ProducerId else t0.ProducerId,
    FirstOffset := if version ≥ 4 then t.FirstOffset else t0.FirstOffset }

/-- Nothing in `t` is lost at this version. -/
structure AbortedTransaction1.Canon (version : Int16) (t : AbortedTransaction1) : Prop where
  ProducerId : ¬(version ≥ 4) → t.ProducerId = 0
  FirstOffset : ¬(version ≥ 4) → t.FirstOffset = 0

/-- The specification of `AbortedTransaction1`. -/
def AbortedTransaction1.layout : Layout AbortedTransaction1.type :=
  { wire := AbortedTransaction1.wire, Fits := AbortedTransaction1.Fits, seen := AbortedTransaction1.seen, Canon := AbortedTransaction1.Canon }

/-- Wire format of `FetchablePartitionResponse1`. -/
def FetchablePartitionResponse1.wire (version : Int16) (t : FetchablePartitionResponse1) : List Byte :=
  Wire.int32 t.PartitionIndex ++
  Wire.int16 t.ErrorCode ++
  Wire.int64 t.HighWatermark ++
  Wire.when (version ≥ 4) (Wire.int64 t.LastStableOffset) ++
  Wire.when (version ≥ 5) (Wire.int64 t.LogStartOffset) ++
  Wire.when (version ≥ 4) (Wire.array (AbortedTransaction1.wire version) t.Aborted) ++
  Wire.when (version ≥ 11) (Wire.int32 t.PreferredReadReplica) ++
  Wire.bytes t.Records

/-- Lengths are representable. -/
structure FetchablePartitionResponse1.Fits (version : Int16) (t : FetchablePartitionResponse1) : Prop where
  Aborted : version ≥ 4 → FitsAll (AbortedTransaction1.Fits version) t.Aborted
  Records : FitsSlice t.Records

/-- The value after `t` has been decoded into `t0`. -/
def FetchablePartitionResponse1.seen (version : Int16) (t t0 : FetchablePartitionResponse1) : FetchablePartitionResponse1 :=
  { PartitionIndex := t.PartitionIndex,
    ErrorCode := t.ErrorCode,
    HighWatermark := t.HighWatermark,
    LastStableOffset := if version ≥ 4 then t.LastStableOffset else t0.LastStableOffset,
    LogStartOffset := if version ≥ 5 then t.LogStartOffset else t0.LogStartOffset,
    Aborted := if version ≥ 4 then some (t.Aborted.elems.map fun x => x.seen version {}) else t0.Aborted,
    PreferredReadReplica := if version ≥ 11 then t.PreferredReadReplica else t0.PreferredReadReplica,
    Records := t.Records.nonNil }

/-- Nothing in `t` is lost at this version. -/
structure FetchablePartitionResponse1.Canon (version : Int16) (t : FetchablePartitionResponse1) : Prop where
  LastStableOffset : ¬(version ≥ 4) → t.LastStableOffset = 0
  LogStartOffset : ¬(version ≥ 5) → t.LogStartOffset = 0
  Aborted : (version ≥ 4 → CanonAll (AbortedTransaction1.Canon version) t.Aborted) ∧ (¬(version ≥ 4) → t.Aborted = none)
  PreferredReadReplica : ¬(version ≥ 11) → t.PreferredReadReplica = 0
  Records : t.Records.NotNil

/-- The specification of `FetchablePartitionResponse1`. -/
def FetchablePartitionResponse1.layout : Layout FetchablePartitionResponse1.type :=
  { wire := FetchablePartitionResponse1.wire, Fits := FetchablePartitionResponse1.Fits, seen := FetchablePartitionResponse1.seen, Canon := FetchablePartitionResponse1.Canon }

/-- Wire format of `FetchableTopicResponse1`. -/
def FetchableTopicResponse1.wire (version : Int16) (t : FetchableTopicResponse1) : List Byte :=
  Wire.string t.Name ++
  Wire.array (FetchablePartitionResponse1.wire version) t.Partitions

/-- Lengths are representable. -/
structure FetchableTopicResponse1.Fits (version : Int16) (t : FetchableTopicResponse1) : Prop where
  Name : FitsString t.Name
  Partitions : FitsAll (FetchablePartitionResponse1.Fits version) t.Partitions

/-- The value after `t` has been decoded into `t0`. -/
def FetchableTopicResponse1.seen (version : Int16) (t _t0 : FetchableTopicResponse1) : FetchableTopicResponse1 :=
  { Name := t.Name,
    Partitions := some (t.Partitions.elems.map fun x => x.seen version {}) }

/-- Nothing in `t` is lost at this version. -/
structure FetchableTopicResponse1.Canon (version : Int16) (t : FetchableTopicResponse1) : Prop where
  Partitions : CanonAll (FetchablePartitionResponse1.Canon version) t.Partitions

/-- The specification of `FetchableTopicResponse1`. -/
def FetchableTopicResponse1.layout : Layout FetchableTopicResponse1.type :=
  { wire := FetchableTopicResponse1.wire, Fits := FetchableTopicResponse1.Fits, seen := FetchableTopicResponse1.seen, Canon := FetchableTopicResponse1.Canon }

/-- Wire format of `FetchResponse`. -/
def FetchResponse.wire (version : Int16) (t : FetchResponse) : List Byte :=
  Wire.when (version ≥ 1) (Wire.int32 t.ThrottleTimeMs) ++
  Wire.when (version ≥ 7) (Wire.int16 t.ErrorCode) ++
  Wire.when (version ≥ 7) (Wire.int32 t.SessionId) ++
  Wire.array (FetchableTopicResponse1.wire version) t.Topics

/-- Lengths are representable. -/
structure FetchResponse.Fits (version : Int16) (t : FetchResponse) : Prop where
  Topics : FitsAll (FetchableTopicResponse1.Fits version) t.Topics

/-- The value after `t` has been decoded into `t0`. -/
def FetchResponse.seen (version : Int16) (t t0 : FetchResponse) : FetchResponse :=
  { ThrottleTimeMs := if version ≥ 1 then t.ThrottleTimeMs else t0.ThrottleTimeMs,
    ErrorCode := if version ≥ 7 then t.ErrorCode else t0.ErrorCode,
    SessionId := if version ≥ 7 then t.SessionId else t0.SessionId,
    Topics := some (t.Topics.elems.map fun x => x.seen version {}) }

/-- Nothing in `t` is lost at this version. -/
structure FetchResponse.Canon (version : Int16) (t : FetchResponse) : Prop where
  ThrottleTimeMs : ¬(version ≥ 1) → t.ThrottleTimeMs = 0
  ErrorCode : ¬(version ≥ 7) → t.ErrorCode = 0
  SessionId : ¬(version ≥ 7) → t.SessionId = 0
  Topics : CanonAll (FetchableTopicResponse1.Canon version) t.Topics

/-- The specification of `FetchResponse`. -/
def FetchResponse.layout : Layout FetchResponse.type :=
  { wire := FetchResponse.wire, Fits := FetchResponse.Fits, seen := FetchResponse.seen, Canon := FetchResponse.Canon }

end Kafka.Msg
