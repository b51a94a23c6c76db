import Verif.Message.Layout
import Verif.Gen.Model.Produce
/-!
Generated by tools/gen_messages.py: specification of the Produce messages.
-/
namespace Kafka.Msg

/-- Wire format of `PartitionProduceData0`. -/
def PartitionProduceData0.wire (_version : Int16) (t : PartitionProduceData0) : List Byte :=
  Wire.int32 t.PartitionIndex ++
  Wire.bytes t.Records

/-- Lengths are representable. -/
structure PartitionProduceData0.Fits (version : Int16) (t : PartitionProduceData0) : Prop where
  Records : FitsSlice t.Records

/-- The value after `t` has been decoded into `t0`. -/
def PartitionProduceData0.seen (_version : Int16) (t _t0 : PartitionProduceData0) : PartitionProduceData0 :=
  { PartitionIndex := t.PartitionIndex,
    Records := t.Records.nonNil }

/-- Nothing in `t` is lost at this version. -/
structure PartitionProduceData0.Canon (version : Int16) (t : PartitionProduceData0) : Prop where
  Records : t.Records.NotNil

/-- The specification of `PartitionProduceData0`. -/
def PartitionProduceData0.layout : Layout PartitionProduceData0.type :=
  { wire := PartitionProduceData0.wire, Fits := PartitionProduceData0.Fits, seen := PartitionProduceData0.seen, Canon := PartitionProduceData0.Canon }

/-- Wire format of `TopicProduceData0`. -/
def TopicProduceData0.wire (version : Int16) (t : TopicProduceData0) : List Byte :=
  Wire.string t.Name ++
  Wire.array (PartitionProduceData0.wire version) t.Partitions

/-- Lengths are representable. -/
structure TopicProduceData0.Fits (version : Int16) (t : TopicProduceData0) : Prop where
  Name : FitsString t.Name
  Partitions : FitsAll (PartitionProduceData0.Fits version) t.Partitions

/-- The value after `t` has been decoded into `t0`. -/
def TopicProduceData0.seen (version : Int16) (t _t0 : TopicProduceData0) : TopicProduceData0 :=
  { Name := t.Name,
    Partitions := some (t.Partitions.elems.map fun x => x.seen version {}) }

/-- Nothing in `t` is lost at this version. -/
structure TopicProduceData0.Canon (version : Int16) (t : TopicProduceData0) : Prop where
  Partitions : CanonAll (PartitionProduceData0.Canon version) t.Partitions

/-- The specification of `TopicProduceData0`. -/
def TopicProduceData0.layout : Layout TopicProduceData0.type :=
  { wire := TopicProduceData0.wire, Fits := TopicProduceData0.Fits, seen := TopicProduceData0.seen, Canon := TopicProduceData0.Canon }

/-- Wire format of `ProduceRequest`. -/
def ProduceRequest.wire (version : Int16) (t : ProduceRequest) : List Byte :=
  Wire.when (version ≥ 3) (Wire.string t.TransactionalId) ++
  Wire.int16 t.Acks ++
  Wire.int32 t.TimeoutMs ++
  Wire.array (TopicProduceData0.wire version) t.Topics

/-- Lengths are representable. -/
structure ProduceRequest.Fits (version : Int16) (t : ProduceRequest) : Prop where
  TransactionalId : version ≥ 3 → FitsString t.TransactionalId
  Topics : FitsAll (TopicProduceData0.Fits version) t.Topics

/-- The value after `t` has been decoded into `t0`. -/
def ProduceRequest.seen (version : Int16) (t t0 : ProduceRequest) : ProduceRequest :=
  { TransactionalId := if version ≥ 3 then t.TransactionalId else t0.TransactionalId,
    Acks := t.Acks,
    TimeoutMs := t.TimeoutMs,
    Topics := some (t.Topics.elems.map fun x => x.seen version {}) }

/-- Nothing in `t` is lost at this version. -/
structure ProduceRequest.Canon (version : Int16) (t : ProduceRequest) : Prop where
  TransactionalId : ¬(version ≥ 3) → t.TransactionalId = []
  Topics : CanonAll (TopicProduceData0.Canon version) t.Topics

/-- The specification of `ProduceRequest`. -/
def ProduceRequest.layout : Layout ProduceRequest.type :=
  { wire := ProduceRequest.wire, Fits := ProduceRequest.Fits, seen := ProduceRequest.seen, Canon := ProduceRequest.Canon }

/-- Wire format of `BatchIndexAndErrorMessage0`. -/
def BatchIndexAndErrorMessage0.wire (version : Int16) (t : BatchIndexAndErrorMessage0) : List Byte :=
  Wire.when (version ≥ 8) (Wire.int32 t.BatchIndex) ++
  Wire.when (version ≥ 8) (Wire.string t.BatchIndexErrorMessage)

/-- Lengths are representable. -/
structure BatchIndexAndErrorMessage0.Fits (version : Int16) (t : BatchIndexAndErrorMessage0) : Prop where
  BatchIndexErrorMessage : version ≥ 8 → FitsString t.BatchIndexErrorMessage

/-- The value after `t` has been decoded into `t0`. -/
def BatchIndexAndErrorMessage0.seen (version : Int16) (t t0 : BatchIndexAndErrorMessage0) : BatchIndexAndErrorMessage0 :=
  { BatchIndex := if version ≥ 8 then t.BatchIndex else t0.BatchIndex,
    BatchIndexErrorMessage := if version ≥ 8 then t.BatchIndexErrorMessage else t0.BatchIndexErrorMessage }

/-- Nothing in `t` is lost at this version. -/
structure BatchIndexAndErrorMessage0.Canon (version : Int16) (t : BatchIndexAndErrorMessage0) : Prop where
  BatchIndex : ¬(version ≥ 8) → t.BatchIndex = 0
  BatchIndexErrorMessage : ¬(version ≥ 8) → t.BatchIndexErrorMessage = []

/-- The specification of `BatchIndexAndErrorMessage0`. -/
def BatchIndexAndErrorMessage0.layout : Layout BatchIndexAndErrorMessage0.type :=
  { wire := BatchIndexAndErrorMessage0.wire, Fits := BatchIndexAndErrorMessage0.Fits, seen := BatchIndexAndErrorMessage0.seen, Canon := BatchIndexAndErrorMessage0.Canon }

/-- Wire format of `PartitionProduceResponse0`. -/
def PartitionProduceResponse0.wire (version : Int16) (t : PartitionProduceResponse0) : List Byte :=
  Wire.int32 t.PartitionIndex ++
  Wire.int16 t.ErrorCode ++
  Wire.int64 t.BaseOffset ++
  Wire.when (version ≥ 2) (Wire.int64 t.LogAppendTimeMs) ++
  Wire.when (version ≥ 5) (Wire.int64 t.LogStartOffset) ++
  Wire.when (version ≥ 8) (Wire.array (BatchIndexAndErrorMessage0.wire version) t.RecordErrors) ++
  Wire.when (version ≥ 8) (Wire.string t.ErrorMessage)

/-- Lengths are representable. -/
structure PartitionProduceResponse0.Fits (version : Int16) (t : PartitionProduceResponse0) : Prop where
  RecordErrors : version ≥ 8 → FitsAll (BatchIndexAndErrorMessage0.Fits version) t.RecordErrors
  ErrorMessage : version ≥ 8 → FitsString t.ErrorMessage

/-- The value after `t` has been decoded into `t0`. -/
def PartitionProduceResponse0.seen (version : Int16) (t t0 : PartitionProduceResponse0) : PartitionProduceResponse0 :=
  { PartitionIndex := t.PartitionIndex,
    ErrorCode := t.ErrorCode,
    BaseOffset := t.BaseOffset,
    LogAppendTimeMs := if version ≥ 2 then t.LogAppendTimeMs else t0.LogAppendTimeMs,
    LogStartOffset := if version ≥ 5 then t.LogStartOffset else t0.LogStartOffset,
    RecordErrors := if version ≥ 8 then some (t.RecordErrors.elems.map fun x => x.seen version {}) else t0.RecordErrors,
    ErrorMessage := if version ≥ 8 then t.ErrorMessage else t0.ErrorMessage }

/-- Nothing in `t` is lost at this version. -/
structure PartitionProduceResponse0.Canon (version : Int16) (t : PartitionProduceResponse0) : Prop where
  LogAppendTimeMs : ¬(version ≥ 2) → t.LogAppendTimeMs = 0
  LogStartOffset : ¬(version ≥ 5) → t.LogStartOffset = 0
  RecordErrors : (version ≥ 8 → CanonAll (BatchIndexAndErrorMessage0.Canon version) t.RecordErrors) ∧ (¬(version ≥ 8) → t.RecordErrors = none)
  ErrorMessage : ¬(version ≥ 8) → t.ErrorMessage = []

/-- The specification of `PartitionProduceResponse0`. -/
def PartitionProduceResponse0.layout : Layout PartitionProduceResponse0.type :=
  { wire := PartitionProduceResponse0.wire, Fits := PartitionProduceResponse0.Fits, seen := PartitionProduceResponse0.seen, Canon := PartitionProduceResponse0.Canon }

/-- Wire format of `TopicProduceResponse0`. -/
def TopicProduceResponse0.wire (version : Int16) (t : TopicProduceResponse0) : List Byte :=
  Wire.string t.Name ++
  Wire.array (PartitionProduceResponse0.wire version) t.Partitions

/-- Lengths are representable. -/
structure TopicProduceResponse0.Fits (version : Int16) (t : TopicProduceResponse0) : Prop where
  Name : FitsString t.Name
  Partitions : FitsAll (PartitionProduceResponse0.Fits version) t.Partitions

/-- The value after `t` has been decoded into `t0`. -/
def TopicProduceResponse0.seen (version : Int16) (t _t0 : TopicProduceResponse0) : TopicProduceResponse0 :=
  { Name := t.Name,
    Partitions := some (t.Partitions.elems.map fun x => x.seen version {}) }

/-- Nothing in `t` is lost at this version. -/
structure TopicProduceResponse0.Canon (version : Int16) (t : TopicProduceResponse0) : Prop where
  Partitions : CanonAll (PartitionProduceResponse0.Canon version) t.Partitions

/-- The specification of `TopicProduceResponse0`. -/
def TopicProduceResponse0.layout : Layout TopicProduceResponse0.type :=
  { wire := TopicProduceResponse0.wire, Fits := TopicProduceResponse0.Fits, seen := TopicProduceResponse0.seen, Canon := TopicProduceResponse0.Canon }

/-- Wire format of `ProduceResponse`. -/
def ProduceResponse.wire (version : Int16) (t : ProduceResponse) : List Byte :=
  Wire.array (TopicProduceResponse0.wire version) t.Responses ++
  Wire.when (version ≥ 1) (Wire.int32 t.ThrottleTimeMs)

/-- Lengths are representable. -/
structure ProduceResponse.Fits (version : Int16) (t : ProduceResponse) : Prop where
  Responses : FitsAll (TopicProduceResponse0.Fits version) t.Responses

/-- The value after `t` has been decoded into `t0`. -/
def ProduceResponse.seen (version : Int16) (t t0 : ProduceResponse) : ProduceResponse :=
  { Responses := some (t.Responses.elems.map fun x => x.seen version {}),
    ThrottleTimeMs := if version ≥ 1 then t.ThrottleTimeMs else t0.ThrottleTimeMs }

/-- Nothing in `t` is lost at this version. -/
structure ProduceResponse.Canon (version : Int16) (t : ProduceResponse) : Prop where
  Responses : CanonAll (TopicProduceResponse0.Canon version) t.Responses
  ThrottleTimeMs : ¬(version ≥ 1) → t.ThrottleTimeMs = 0

/-- The specification of `ProduceResponse`. -/
def ProduceResponse.layout : Layout ProduceResponse.type :=
  { wire := ProduceResponse.wire, Fits := ProduceResponse.Fits, seen := ProduceResponse.seen, Canon := ProduceResponse.Canon }

end Kafka.Msg
