import Verif.Message.Layout
import Verif.Gen.Model.WriteTxnMarkers
/-!
Generated by tools/gen_messages.py: specification of the WriteTxnMarkers messages.
-/
namespace Kafka.Msg

/-- Wire format of `WritableTxnMarkerTopic27`. -/
def WritableTxnMarkerTopic27.wire (_version : Int16) (t : WritableTxnMarkerTopic27) : List Byte :=
  Wire.string t.Name ++
  Wire.int32Array t.PartitionIndexes

/-- Lengths are representable. -/
structure WritableTxnMarkerTopic27.Fits (version : Int16) (t : WritableTxnMarkerTopic27) : Prop where
  Name : FitsString t.Name
  PartitionIndexes : FitsSlice t.PartitionIndexes

/-- The value after `t` has been decoded into `t0`. -/
def WritableTxnMarkerTopic27.seen (_version : Int16) (t _t0 : WritableTxnMarkerTopic27) : WritableTxnMarkerTopic27 :=
  { Name := t.Name,
    PartitionIndexes := t.PartitionIndexes }

/-- Nothing can be lost. -/
def WritableTxnMarkerTopic27.Canon (_version : Int16) (_t : WritableTxnMarkerTopic27) : Prop := True

/-- The specification of `WritableTxnMarkerTopic27`. -/
def WritableTxnMarkerTopic27.layout : Layout WritableTxnMarkerTopic27.type :=
  { wire := WritableTxnMarkerTopic27.wire, Fits := WritableTxnMarkerTopic27.Fits, seen := WritableTxnMarkerTopic27.seen, Canon := WritableTxnMarkerTopic27.Canon }

/-- Wire format of `WritableTxnMarker27`. -/
def WritableTxnMarker27.wire (version : Int16) (t : WritableTxnMarker27) : List Byte :=
  Wire.int64 t.ProducerId ++
  Wire.int16 t.ProducerEpoch ++
  Wire.bool t.TransactionResult ++
  Wire.array (WritableTxnMarkerTopic27.wire version) t.Topics ++
  Wire.int32 t.CoordinatorEpoch

/-- Lengths are representable. -/
structure WritableTxnMarker27.Fits (version : Int16) (t : WritableTxnMarker27) : Prop where
  Topics : FitsAll (WritableTxnMarkerTopic27.Fits version) t.Topics

/-- The value after `t` has been decoded into `t0`. -/
def WritableTxnMarker27.seen (version : Int16) (t _t0 : WritableTxnMarker27) : WritableTxnMarker27 :=
  { ProducerId := t.ProducerId,
    ProducerEpoch := t.ProducerEpoch,
    TransactionResult := t.TransactionResult,
    Topics := some (t.Topics.elems.map fun x => x.seen version {}),
    CoordinatorEpoch := t.CoordinatorEpoch }

/-- Nothing in `t` is lost at this version. -/
structure WritableTxnMarker27.Canon (version : Int16) (t : WritableTxnMarker27) : Prop where
  Topics : CanonAll (WritableTxnMarkerTopic27.Canon version) t.Topics

/-- The specification of `WritableTxnMarker27`. -/
def WritableTxnMarker27.layout : Layout WritableTxnMarker27.type :=
  { wire := WritableTxnMarker27.wire, Fits := WritableTxnMarker27.Fits, seen := WritableTxnMarker27.seen, Canon := WritableTxnMarker27.Canon }

/-- Wire format of `WriteTxnMarkersRequest`. -/
def WriteTxnMarkersRequest.wire (version : Int16) (t : WriteTxnMarkersRequest) : List Byte :=
  Wire.array (WritableTxnMarker27.wire version) t.Markers

/-- Lengths are representable. -/
structure WriteTxnMarkersRequest.Fits (version : Int16) (t : WriteTxnMarkersRequest) : Prop where
  Markers : FitsAll (WritableTxnMarker27.Fits version) t.Markers

/-- The value after `t` has been decoded into `t0`. -/
def WriteTxnMarkersRequest.seen (version : Int16) (t _t0 : WriteTxnMarkersRequest) : WriteTxnMarkersRequest :=
  { Markers := some (t.Markers.elems.map fun x => x.seen version {}) }

/-- Nothing in `t` is lost at this version. -/
structure WriteTxnMarkersRequest.Canon (version : Int16) (t : WriteTxnMarkersRequest) : Prop where
  Markers : CanonAll (WritableTxnMarker27.Canon version) t.Markers

/-- The specification of `WriteTxnMarkersRequest`. -/
def WriteTxnMarkersRequest.layout : Layout WriteTxnMarkersRequest.type :=
  { wire := WriteTxnMarkersRequest.wire, Fits := WriteTxnMarkersRequest.Fits, seen := WriteTxnMarkersRequest.seen, Canon := WriteTxnMarkersRequest.Canon }

/-- Wire format of `WritableTxnMarkerPartitionResult27`. -/
def WritableTxnMarkerPartitionResult27.wire (_version : Int16) (t : WritableTxnMarkerPartitionResult27) : List Byte :=
  Wire.int32 t.PartitionIndex ++
  Wire.int16 t.ErrorCode

/-- No field has a length prefix. -/
def WritableTxnMarkerPartitionResult27.Fits (_version : Int16) (_t : WritableTxnMarkerPartitionResult27) : Prop := True

/-- The value after `t` has been decoded into `t0`. -/
def WritableTxnMarkerPartitionResult27.seen (_version : Int16) (t _t0 : WritableTxnMarkerPartitionResult27) : WritableTxnMarkerPartitionResult27 :=
  { PartitionIndex := t.PartitionIndex,
    ErrorCode := t.ErrorCode }

/-- Nothing can be lost. -/
def WritableTxnMarkerPartitionResult27.Canon (_version : Int16) (_t : WritableTxnMarkerPartitionResult27) : Prop := True

/-- The specification of `WritableTxnMarkerPartitionResult27`. -/
def WritableTxnMarkerPartitionResult27.layout : Layout WritableTxnMarkerPartitionResult27.type :=
  { wire := WritableTxnMarkerPartitionResult27.wire, Fits := WritableTxnMarkerPartitionResult27.Fits, seen := WritableTxnMarkerPartitionResult27.seen, Canon := WritableTxnMarkerPartitionResult27.Canon }

/-- Wire format of `WritableTxnMarkerTopicResult27`. -/
def WritableTxnMarkerTopicResult27.wire (version : Int16) (t : WritableTxnMarkerTopicResult27) : List Byte :=
  Wire.string t.Name ++
  Wire.array (WritableTxnMarkerPartitionResult27.wire version) t.Partitions

/-- Lengths are representable. -/
structure WritableTxnMarkerTopicResult27.Fits (version : Int16) (t : WritableTxnMarkerTopicResult27) : Prop where
  Name : FitsString t.Name
  Partitions : FitsAll (WritableTxnMarkerPartitionResult27.Fits version) t.Partitions

/-- The value after `t` has been decoded into `t0`. -/
def WritableTxnMarkerTopicResult27.seen (version : Int16) (t _t0 : WritableTxnMarkerTopicResult27) : WritableTxnMarkerTopicResult27 :=
  { Name := t.Name,
    Partitions := some (t.Partitions.elems.map fun x => x.seen version {}) }

/-- Nothing in `t` is lost at this version. -/
structure WritableTxnMarkerTopicResult27.Canon (version : Int16) (t : WritableTxnMarkerTopicResult27) : Prop where
  Partitions : CanonAll (WritableTxnMarkerPartitionResult27.Canon version) t.Partitions

/-- The specification of `WritableTxnMarkerTopicResult27`. -/
def WritableTxnMarkerTopicResult27.layout : Layout WritableTxnMarkerTopicResult27.type :=
  { wire := WritableTxnMarkerTopicResult27.wire, Fits := WritableTxnMarkerTopicResult27.Fits, seen := WritableTxnMarkerTopicResult27.seen, Canon := WritableTxnMarkerTopicResult27.Canon }

/-- Wire format of `WritableTxnMarkerResult27`. -/
def WritableTxnMarkerResult27.wire (version : Int16) (t : WritableTxnMarkerResult27) : List Byte :=
  Wire.int64 t.ProducerId ++
  Wire.array (WritableTxnMarkerTopicResult27.wire version) t.Topics

/-- Lengths are representable. -/
structure WritableTxnMarkerResult27.Fits (version : Int16) (t : WritableTxnMarkerResult27) : Prop where
  Topics : FitsAll (WritableTxnMarkerTopicResult27.Fits version) t.Topics

/-- The value after `t` has been decoded into `t0`. -/
def WritableTxnMarkerResult27.seen (version : Int16) (t _t0 : WritableTxnMarkerResult27) : WritableTxnMarkerResult27 :=
  { ProducerId := t.ProducerId,
    Topics := some (t.Topics.elems.map fun x => x.seen version {}) }

/-- Nothing in `t` is lost at this version. -/
structure WritableTxnMarkerResult27.Canon (version : Int16) (t : WritableTxnMarkerResult27) : Prop where
  Topics : CanonAll (WritableTxnMarkerTopicResult27.Canon version) t.Topics

/-- The specification of `WritableTxnMarkerResult27`. -/
def WritableTxnMarkerResult27.layout : Layout WritableTxnMarkerResult27.type :=
  { wire := WritableTxnMarkerResult27.wire, Fits := WritableTxnMarkerResult27.Fits, seen := WritableTxnMarkerResult27.seen, Canon := WritableTxnMarkerResult27.Canon }

/-- Wire format of `WriteTxnMarkersResponse`. -/
def WriteTxnMarkersResponse.wire (version : Int16) (t : WriteTxnMarkersResponse) : List Byte :=
  Wire.array (WritableTxnMarkerResult27.wire version) t.Markers

/-- Lengths are representable. -/
structure WriteTxnMarkersResponse.Fits (version : Int16) (t : WriteTxnMarkersResponse) : Prop where
  Markers : FitsAll (WritableTxnMarkerResult27.Fits version) t.Markers

/-- The value after `t` has been decoded into `t0`. -/
def WriteTxnMarkersResponse.seen (version : Int16) (t _t0 : WriteTxnMarkersResponse) : WriteTxnMarkersResponse :=
  { Markers := some (t.Markers.elems.map fun x => x.seen version {}) }

/-- Nothing in `t` is lost at this version. -/
structure WriteTxnMarkersResponse.Canon (version : Int16) (t : WriteTxnMarkersResponse) : Prop where
  Markers : CanonAll (WritableTxnMarkerResult27.Canon version) t.Markers

/-- The specification of `WriteTxnMarkersResponse`. -/
def WriteTxnMarkersResponse.layout : Layout WriteTxnMarkersResponse.type :=
  { wire := WriteTxnMarkersResponse.wire, Fits := WriteTxnMarkersResponse.Fits, seen := WriteTxnMarkersResponse.seen, Canon := WriteTxnMarkersResponse.Canon }

end Kafka.Msg
