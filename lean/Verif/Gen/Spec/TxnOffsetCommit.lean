import Verif.Message.Layout
import Verif.Gen.Model.TxnOffsetCommit
/-!
Generated by tools/gen_messages.py: specification of the TxnOffsetCommit messages.
-/
namespace Kafka.Msg

/-- Wire format of `TxnOffsetCommitRequestPartition28`. -/
def TxnOffsetCommitRequestPartition28.wire (version : Int16) (t : TxnOffsetCommitRequestPartition28) : List Byte :=
  Wire.int32 t.PartitionIndex ++
  Wire.int64 t.CommittedOffset ++
  Wire.when (version ≥ 2) (Wire.int32 t.CommittedLeaderEpoch) ++
  Wire.string t.CommittedMetadata

/-- Lengths are representable. -/
structure TxnOffsetCommitRequestPartition28.Fits (version : Int16) (t : TxnOffsetCommitRequestPartition28) : Prop where
  CommittedMetadata : FitsString t.CommittedMetadata

/-- The value after `t` has been decoded into `t0`. -/
def TxnOffsetCommitRequestPartition28.seen (version : Int16) (t t0 : TxnOffsetCommitRequestPartition28) : TxnOffsetCommitRequestPartition28 :=
  { PartitionIndex := t.PartitionIndex,
    CommittedOffset := t.CommittedOffset,
    CommittedLeaderEpoch := if version ≥ 2 then t.CommittedLeaderEpoch else t0.CommittedLeaderEpoch,
    CommittedMetadata := t.CommittedMetadata }

/-- Nothing in `t` is lost at this version. -/
structure TxnOffsetCommitRequestPartition28.Canon (version : Int16) (t : TxnOffsetCommitRequestPartition28) : Prop where
  CommittedLeaderEpoch : ¬(version ≥ 2) → t.CommittedLeaderEpoch = 0

/-- The specification of `TxnOffsetCommitRequestPartition28`. -/
def TxnOffsetCommitRequestPartition28.layout : Layout TxnOffsetCommitRequestPartition28.type :=
  { wire := TxnOffsetCommitRequestPartition28.wire, Fits := TxnOffsetCommitRequestPartition28.Fits, seen := TxnOffsetCommitRequestPartition28.seen, Canon := TxnOffsetCommitRequestPartition28.Canon }

/-- Wire format of `TxnOffsetCommitRequestTopic28`. -/
def TxnOffsetCommitRequestTopic28.wire (version : Int16) (t : TxnOffsetCommitRequestTopic28) : List Byte :=
  Wire.string t.Name ++
  Wire.array (TxnOffsetCommitRequestPartition28.wire version) t.Partitions

/-- Lengths are representable. -/
structure TxnOffsetCommitRequestTopic28.Fits (version : Int16) (t : TxnOffsetCommitRequestTopic28) : Prop where
  Name : FitsString t.Name
  Partitions : FitsAll (TxnOffsetCommitRequestPartition28.Fits version) t.Partitions

/-- The value after `t` has been decoded into `t0`. -/
def TxnOffsetCommitRequestTopic28.seen (version : Int16) (t _t0 : TxnOffsetCommitRequestTopic28) : TxnOffsetCommitRequestTopic28 :=
  { Name := t.Name,
    Partitions := some (t.Partitions.elems.map fun x => x.seen version {}) }

/-- Nothing in `t` is lost at this version. -/
structure TxnOffsetCommitRequestTopic28.Canon (version : Int16) (t : TxnOffsetCommitRequestTopic28) : Prop where
  Partitions : CanonAll (TxnOffsetCommitRequestPartition28.Canon version) t.Partitions

/-- The specification of `TxnOffsetCommitRequestTopic28`. -/
def TxnOffsetCommitRequestTopic28.layout : Layout TxnOffsetCommitRequestTopic28.type :=
  { wire := TxnOffsetCommitRequestTopic28.wire, Fits := TxnOffsetCommitRequestTopic28.Fits, seen := TxnOffsetCommitRequestTopic28.seen, Canon := TxnOffsetCommitRequestTopic28.Canon }

/-- Wire format of `TxnOffsetCommitRequest`. -/
def TxnOffsetCommitRequest.wire (version : Int16) (t : TxnOffsetCommitRequest) : List Byte :=
  Wire.string t.TransactionalId ++
  Wire.string t.GroupId ++
  Wire.int64 t.ProducerId ++
  Wire.int16 t.ProducerEpoch ++
  Wire.array (TxnOffsetCommitRequestTopic28.wire version) t.Topics

/-- Lengths are representable. -/
structure TxnOffsetCommitRequest.Fits (version : Int16) (t : TxnOffsetCommitRequest) : Prop where
  TransactionalId : FitsString t.TransactionalId
  GroupId : FitsString t.GroupId
  Topics : FitsAll (TxnOffsetCommitRequestTopic28.Fits version) t.Topics

/-- The value after `t` has been decoded into `t0`. -/
def TxnOffsetCommitRequest.seen (version : Int16) (t _t0 : TxnOffsetCommitRequest) : TxnOffsetCommitRequest :=
  { TransactionalId := t.TransactionalId,
    GroupId := t.GroupId,
    ProducerId := t.ProducerId,
    ProducerEpoch := t.ProducerEpoch,
    Topics := some (t.Topics.elems.map fun x => x.seen version {}) }

/-- Nothing in `t` is lost at this version. -/
structure TxnOffsetCommitRequest.Canon (version : Int16) (t : TxnOffsetCommitRequest) : Prop where
  Topics : CanonAll (TxnOffsetCommitRequestTopic28.Canon version) t.Topics

/-- The specification of `TxnOffsetCommitRequest`. -/
def TxnOffsetCommitRequest.layout : Layout TxnOffsetCommitRequest.type :=
  { wire := TxnOffsetCommitRequest.wire, Fits := TxnOffsetCommitRequest.Fits, seen := TxnOffsetCommitRequest.seen, Canon := TxnOffsetCommitRequest.Canon }

/-- Wire format of `TxnOffsetCommitResponsePartition28`. -/
def TxnOffsetCommitResponsePartition28.wire (_version : Int16) (t : TxnOffsetCommitResponsePartition28) : List Byte :=
  Wire.int32 t.PartitionIndex ++
  Wire.int16 t.ErrorCode

/-- No field has a length prefix. -/
def TxnOffsetCommitResponsePartition28.Fits (_version : Int16) (_t : TxnOffsetCommitResponsePartition28) : Prop := True

/-- The value after `t` has been decoded into `t0`. -/
def TxnOffsetCommitResponsePartition28.seen (_version : Int16) (t _t0 : TxnOffsetCommitResponsePartition28) : TxnOffsetCommitResponsePartition28 :=
  { PartitionIndex := t.PartitionIndex,
    ErrorCode := t.ErrorCode }

/-- Nothing can be lost. -/
def TxnOffsetCommitResponsePartition28.Canon (_version : Int16) (_t : TxnOffsetCommitResponsePartition28) : Prop := True

/-- The specification of `TxnOffsetCommitResponsePartition28`. -/
def TxnOffsetCommitResponsePartition28.layout : Layout TxnOffsetCommitResponsePartition28.type :=
  { wire := TxnOffsetCommitResponsePartition28.wire, Fits := TxnOffsetCommitResponsePartition28.Fits, seen := TxnOffsetCommitResponsePartition28.seen, Canon := TxnOffsetCommitResponsePartition28.Canon }

/-- Wire format of `TxnOffsetCommitResponseTopic28`. -/
def TxnOffsetCommitResponseTopic28.wire (version : Int16) (t : TxnOffsetCommitResponseTopic28) : List Byte :=
  Wire.string t.Name ++
  Wire.array (TxnOffsetCommitResponsePartition28.wire version) t.Partitions

/-- Lengths are representable. -/
structure TxnOffsetCommitResponseTopic28.Fits (version : Int16) (t : TxnOffsetCommitResponseTopic28) : Prop where
  Name : FitsString t.Name
  Partitions : FitsAll (TxnOffsetCommitResponsePartition28.Fits version) t.Partitions

/-- The value after `t` has been decoded into `t0`. -/
def TxnOffsetCommitResponseTopic28.seen (version : Int16) (t _t0 : TxnOffsetCommitResponseTopic28) : TxnOffsetCommitResponseTopic28 :=
  { Name := t.Name,
    Partitions := some (t.Partitions.elems.map fun x => x.seen version {}) }

/-- Nothing in `t` is lost at this version. -/
structure TxnOffsetCommitResponseTopic28.Canon (version : Int16) (t : TxnOffsetCommitResponseTopic28) : Prop where
  Partitions : CanonAll (TxnOffsetCommitResponsePartition28.Canon version) t.Partitions

/-- The specification of `TxnOffsetCommitResponseTopic28`. -/
def TxnOffsetCommitResponseTopic28.layout : Layout TxnOffsetCommitResponseTopic28.type :=
  { wire := TxnOffsetCommitResponseTopic28.wire, Fits := TxnOffsetCommitResponseTopic28.Fits, seen := TxnOffsetCommitResponseTopic28.seen, Canon := TxnOffsetCommitResponseTopic28.Canon }

/-- Wire format of `TxnOffsetCommitResponse`. -/
def TxnOffsetCommitResponse.wire (version : Int16) (t : TxnOffsetCommitResponse) : List Byte :=
  Wire.int32 t.ThrottleTimeMs ++
  Wire.array (TxnOffsetCommitResponseTopic28.wire version) t.Topics

/-- Lengths are representable. -/
structure TxnOffsetCommitResponse.Fits (version : Int16) (t : TxnOffsetCommitResponse) : Prop where
  Topics : FitsAll (TxnOffsetCommitResponseTopic28.Fits version) t.Topics

/-- The value after `t` has been decoded into `t0`. -/
def TxnOffsetCommitResponse.seen (version : Int16) (t _t0 : TxnOffsetCommitResponse) : TxnOffsetCommitResponse :=
  { ThrottleTimeMs := t.ThrottleTimeMs,
    Topics := some (t.Topics.elems.map fun x => x.seen version {}) }

/-- Nothing in `t` is lost at this version. -/
structure TxnOffsetCommitResponse.Canon (version : Int16) (t : TxnOffsetCommitResponse) : Prop where
  Topics : CanonAll (TxnOffsetCommitResponseTopic28.Canon version) t.Topics

/-- The specification of `TxnOffsetCommitResponse`. -/
def TxnOffsetCommitResponse.layout : Layout TxnOffsetCommitResponse.type :=
  { wire := TxnOffsetCommitResponse.wire, Fits := TxnOffsetCommitResponse.Fits, seen := TxnOffsetCommitResponse.seen, Canon := TxnOffsetCommitResponse.Canon }

end Kafka.Msg
