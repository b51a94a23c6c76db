import Verif.Message.Layout
import Verif.Gen.Model.AddPartitionsToTxn
/-!
Generated by tools/gen_messages.py: specification of the AddPartitionsToTxn messages.
-/
namespace Kafka.Msg

/-- Wire format of `AddPartitionsToTxnTopic24`. -/
def AddPartitionsToTxnTopic24.wire (_version : Int16) (t : AddPartitionsToTxnTopic24) : List Byte :=
  Wire.string t.Name ++
  Wire.int32Array t.Partitions

/-- Lengths are representable. -/
structure AddPartitionsToTxnTopic24.Fits (version : Int16) (t : AddPartitionsToTxnTopic24) : Prop where
  Name : FitsString t.Name
  Partitions : FitsSlice t.Partitions

/-- The value after `t` has been decoded into `t0`. -/
def AddPartitionsToTxnTopic24.seen (_version : Int16) (t _t0 : AddPartitionsToTxnTopic24) : AddPartitionsToTxnTopic24 :=
  { Name := t.Name,
    Partitions := t.Partitions }

/-- Nothing can be lost. -/
def AddPartitionsToTxnTopic24.Canon (_version : Int16) (_t : AddPartitionsToTxnTopic24) : Prop := True

/-- The specification of `AddPartitionsToTxnTopic24`. -/
def AddPartitionsToTxnTopic24.layout : Layout AddPartitionsToTxnTopic24.type :=
  { wire := AddPartitionsToTxnTopic24.wire, Fits := AddPartitionsToTxnTopic24.Fits, seen := AddPartitionsToTxnTopic24.seen, Canon := AddPartitionsToTxnTopic24.Canon }

/-- Wire format of `AddPartitionsToTxnRequest`. -/
def AddPartitionsToTxnRequest.wire (version : Int16) (t : AddPartitionsToTxnRequest) : List Byte :=
  Wire.string t.TransactionalId ++
  Wire.int64 t.ProducerId ++
  Wire.int16 t.ProducerEpoch ++
  Wire.array (AddPartitionsToTxnTopic24.wire version) t.Topics

/-- Lengths are representable. -/
structure AddPartitionsToTxnRequest.Fits (version : Int16) (t : AddPartitionsToTxnRequest) : Prop where
  TransactionalId : FitsString t.TransactionalId
  Topics : FitsAll (AddPartitionsToTxnTopic24.Fits version) t.Topics

/-- The value after `t` has been decoded into `t0`. -/
def AddPartitionsToTxnRequest.seen (version : Int16) (t _t0 : AddPartitionsToTxnRequest) : AddPartitionsToTxnRequest :=
  { TransactionalId := t.TransactionalId,
    ProducerId := t.ProducerId,
    ProducerEpoch := t.ProducerEpoch,
    Topics := some (t.Topics.elems.map fun x => x.seen version {}) }

/-- Nothing in `t` is lost at this version. -/
structure AddPartitionsToTxnRequest.Canon (version : Int16) (t : AddPartitionsToTxnRequest) : Prop where
  Topics : CanonAll (AddPartitionsToTxnTopic24.Canon version) t.Topics

/-- The specification of `AddPartitionsToTxnRequest`. -/
def AddPartitionsToTxnRequest.layout : Layout AddPartitionsToTxnRequest.type :=
  { wire := AddPartitionsToTxnRequest.wire, Fits := AddPartitionsToTxnRequest.Fits, seen := AddPartitionsToTxnRequest.seen, Canon := AddPartitionsToTxnRequest.Canon }

/-- Wire format of `AddPartitionsToTxnPartitionResult24`. -/
def AddPartitionsToTxnPartitionResult24.wire (_version : Int16) (t : AddPartitionsToTxnPartitionResult24) : List Byte :=
  Wire.int32 t.PartitionIndex ++
  Wire.int16 t.ErrorCode

/-- No field has a length prefix. -/
def AddPartitionsToTxnPartitionResult24.Fits (_version : Int16) (_t : AddPartitionsToTxnPartitionResult24) : Prop := True

/-- The value after `t` has been decoded into `t0`. -/
def AddPartitionsToTxnPartitionResult24.seen (_version : Int16) (t _t0 : AddPartitionsToTxnPartitionResult24) : AddPartitionsToTxnPartitionResult24 :=
  { PartitionIndex := t.PartitionIndex,
    ErrorCode := t.ErrorCode }

/-- Nothing can be lost. -/
def AddPartitionsToTxnPartitionResult24.Canon (_version : Int16) (_t : AddPartitionsToTxnPartitionResult24) : Prop := True

/-- The specification of `AddPartitionsToTxnPartitionResult24`. -/
def AddPartitionsToTxnPartitionResult24.layout : Layout AddPartitionsToTxnPartitionResult24.type :=
  { wire := AddPartitionsToTxnPartitionResult24.wire, Fits := AddPartitionsToTxnPartitionResult24.Fits, seen := AddPartitionsToTxnPartitionResult24.seen, Canon := AddPartitionsToTxnPartitionResult24.Canon }

/-- Wire format of `AddPartitionsToTxnTopicResult24`. -/
def AddPartitionsToTxnTopicResult24.wire (version : Int16) (t : AddPartitionsToTxnTopicResult24) : List Byte :=
  Wire.string t.Name ++
  Wire.array (AddPartitionsToTxnPartitionResult24.wire version) t.Results

/-- Lengths are representable. -/
structure AddPartitionsToTxnTopicResult24.Fits (version : Int16) (t : AddPartitionsToTxnTopicResult24) : Prop where
  Name : FitsString t.Name
  Results : FitsAll (AddPartitionsToTxnPartitionResult24.Fits version) t.Results

/-- The value after `t` has been decoded into `t0`. -/
def AddPartitionsToTxnTopicResult24.seen (version : Int16) (t _t0 : AddPartitionsToTxnTopicResult24) : AddPartitionsToTxnTopicResult24 :=
  { Name := t.Name,
    Results := some (t.Results.elems.map fun x => x.seen version {}) }

/-- Nothing in `t` is lost at this version. -/
structure AddPartitionsToTxnTopicResult24.Canon (version : Int16) (t : AddPartitionsToTxnTopicResult24) : Prop where
  Results : CanonAll (AddPartitionsToTxnPartitionResult24.Canon version) t.Results

/-- The specification of `AddPartitionsToTxnTopicResult24`. -/
def AddPartitionsToTxnTopicResult24.layout : Layout AddPartitionsToTxnTopicResult24.type :=
  { wire := AddPartitionsToTxnTopicResult24.wire, Fits := AddPartitionsToTxnTopicResult24.Fits, seen := AddPartitionsToTxnTopicResult24.seen, Canon := AddPartitionsToTxnTopicResult24.Canon }

/-- Wire format of `AddPartitionsToTxnResponse`. -/
def AddPartitionsToTxnResponse.wire (version : Int16) (t : AddPartitionsToTxnResponse) : List Byte :=
  Wire.int32 t.ThrottleTimeMs ++
  Wire.array (AddPartitionsToTxnTopicResult24.wire version) t.Results

/-- Lengths are representable. -/
structure AddPartitionsToTxnResponse.Fits (version : Int16) (t : AddPartitionsToTxnResponse) : Prop where
  Results : FitsAll (AddPartitionsToTxnTopicResult24.Fits version) t.Results

/-- The value after `t` has been decoded into `t0`. -/
def AddPartitionsToTxnResponse.seen (version : Int16) (t _t0 : AddPartitionsToTxnResponse) : AddPartitionsToTxnResponse :=
  { ThrottleTimeMs := t.ThrottleTimeMs,
    Results := some (t.Results.elems.map fun x => x.seen version {}) }

/-- Nothing in `t` is lost at this version. -/
structure AddPartitionsToTxnResponse.Canon (version : Int16) (t : AddPartitionsToTxnResponse) : Prop where
  Results : CanonAll (AddPartitionsToTxnTopicResult24.Canon version) t.Results

/-- The specification of `AddPartitionsToTxnResponse`. -/
def AddPartitionsToTxnResponse.layout : Layout AddPartitionsToTxnResponse.type :=
  { wire := AddPartitionsToTxnResponse.wire, Fits := AddPartitionsToTxnResponse.Fits, seen := AddPartitionsToTxnResponse.seen, Canon := AddPartitionsToTxnResponse.Canon }

end Kafka.Msg
