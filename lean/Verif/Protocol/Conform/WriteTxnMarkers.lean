import Verif.Protocol.ParseLemmas
import Verif.Gen.Spec.WriteTxnMarkers
/-!
Generated by tools/gen_protocol.py: the WriteTxnMarkers messages are written and read as the protocol says.
-/
namespace Kafka.Msg

open Protocol

/-- `WritableTxnMarkerTopic27` as a value of the protocol. -/
def WritableTxnMarkerTopic27.val (t : WritableTxnMarkerTopic27) : Val :=
  .struct [("Name", .str (some t.Name)),
    ("PartitionIndexes", ofScalars .int32 t.PartitionIndexes)]

theorem WritableTxnMarkerTopic27.conforms {v : Int16} (hv : 0 ≤ v) (t : WritableTxnMarkerTopic27) :
    Protocol.WritableTxnMarkerTopic.wire false v (WritableTxnMarkerTopic27.val t) = WritableTxnMarkerTopic27.wire v t :=
  Writes.eq <|
    Writes.all hv (Protocol.wire_string v t.Name) <|
    Writes.all hv (Protocol.wire_int32Array v t.PartitionIndexes) <|
    Writes.done

/-- No slice of scalars is nil where the protocol has no null. -/
structure WritableTxnMarkerTopic27.Full (v : Int16) (t : WritableTxnMarkerTopic27) : Prop where
  PartitionIndexes : t.PartitionIndexes.NotNil

theorem WritableTxnMarkerTopic27.valid {v : Int16} (_hv : 0 ≤ v) (t : WritableTxnMarkerTopic27) (h : t.Fits v) (hf : t.Full v) :
    Protocol.WritableTxnMarkerTopic.Valid true v (WritableTxnMarkerTopic27.val t) :=
  Valids.all (valid_string (h.Name)) <|
    Valids.all (valid_int32Array (h.PartitionIndexes) (.inr (hf.PartitionIndexes))) <|
    trivial

/-- `WritableTxnMarker27` as a value of the protocol. -/
def WritableTxnMarker27.val (t : WritableTxnMarker27) : Val :=
  .struct [("ProducerId", .int64 t.ProducerId),
    ("ProducerEpoch", .int16 t.ProducerEpoch),
    ("TransactionResult", .bool t.TransactionResult),
    ("Topics", ofStructs WritableTxnMarkerTopic27.val t.Topics),
    ("CoordinatorEpoch", .int32 t.CoordinatorEpoch)]

theorem WritableTxnMarker27.conforms {v : Int16} (hv : 0 ≤ v) (t : WritableTxnMarker27) :
    Protocol.WritableTxnMarker.wire false v (WritableTxnMarker27.val t) = WritableTxnMarker27.wire v t :=
  Writes.eq <|
    Writes.all hv (Protocol.wire_int64 v t.ProducerId) <|
    Writes.all hv (Protocol.wire_int16 v t.ProducerEpoch) <|
    Writes.all hv (Protocol.wire_bool v t.TransactionResult) <|
    Writes.all hv (Protocol.wire_structs v (WritableTxnMarkerTopic27.conforms hv) t.Topics) <|
    Writes.all hv (Protocol.wire_int32 v t.CoordinatorEpoch) <|
    Writes.done

/-- No slice of scalars is nil where the protocol has no null. -/
structure WritableTxnMarker27.Full (v : Int16) (t : WritableTxnMarker27) : Prop where
  Topics : FullAll (WritableTxnMarkerTopic27.Full v) t.Topics

theorem WritableTxnMarker27.valid {v : Int16} (hv : 0 ≤ v) (t : WritableTxnMarker27) (h : t.Fits v) (hf : t.Full v) :
    Protocol.WritableTxnMarker.Valid true v (WritableTxnMarker27.val t) :=
  Valids.all trivial <|
    Valids.all trivial <|
    Valids.all trivial <|
    Valids.all (valid_structs (fun y h hf => WritableTxnMarkerTopic27.valid hv y h hf) (h.Topics) (hf.Topics)) <|
    Valids.all trivial <|
    trivial

/-- `WriteTxnMarkersRequest` as a value of the protocol. -/
def WriteTxnMarkersRequest.val (t : WriteTxnMarkersRequest) : Val :=
  .struct [("Markers", ofStructs WritableTxnMarker27.val t.Markers)]

theorem WriteTxnMarkersRequest.conforms {v : Int16} (hv : 0 ≤ v) (t : WriteTxnMarkersRequest) :
    Protocol.WriteTxnMarkersRequest.wire false v (WriteTxnMarkersRequest.val t) = WriteTxnMarkersRequest.wire v t :=
  Writes.eq <|
    Writes.all hv (Protocol.wire_structs v (WritableTxnMarker27.conforms hv) t.Markers) <|
    Writes.done

/-- No slice of scalars is nil where the protocol has no null. -/
structure WriteTxnMarkersRequest.Full (v : Int16) (t : WriteTxnMarkersRequest) : Prop where
  Markers : FullAll (WritableTxnMarker27.Full v) t.Markers

theorem WriteTxnMarkersRequest.valid {v : Int16} (hv : 0 ≤ v) (t : WriteTxnMarkersRequest) (h : t.Fits v) (hf : t.Full v) :
    Protocol.WriteTxnMarkersRequest.Valid true v (WriteTxnMarkersRequest.val t) :=
  Valids.all (valid_structs (fun y h hf => WritableTxnMarker27.valid hv y h hf) (h.Markers) (hf.Markers)) <|
    trivial

/-- `WritableTxnMarkerPartitionResult27` as a value of the protocol. -/
def WritableTxnMarkerPartitionResult27.val (t : WritableTxnMarkerPartitionResult27) : Val :=
  .struct [("PartitionIndex", .int32 t.PartitionIndex),
    ("ErrorCode", .int16 t.ErrorCode)]

theorem WritableTxnMarkerPartitionResult27.conforms {v : Int16} (hv : 0 ≤ v) (t : WritableTxnMarkerPartitionResult27) :
    Protocol.WritableTxnMarkerPartitionResult.wire false v (WritableTxnMarkerPartitionResult27.val t) = WritableTxnMarkerPartitionResult27.wire v t :=
  Writes.eq <|
    Writes.all hv (Protocol.wire_int32 v t.PartitionIndex) <|
    Writes.all hv (Protocol.wire_int16 v t.ErrorCode) <|
    Writes.done

/-- There is nothing that may not be nil. -/
def WritableTxnMarkerPartitionResult27.Full (_v : Int16) (_t : WritableTxnMarkerPartitionResult27) : Prop := True

theorem WritableTxnMarkerPartitionResult27.valid {v : Int16} (_hv : 0 ≤ v) (t : WritableTxnMarkerPartitionResult27) (_h : t.Fits v) (_hf : t.Full v) :
    Protocol.WritableTxnMarkerPartitionResult.Valid true v (WritableTxnMarkerPartitionResult27.val t) :=
  Valids.all trivial <|
    Valids.all trivial <|
    trivial

/-- What `WritableTxnMarkerPartitionResult27` holds after reading the value `x` into `t0`. -/
def WritableTxnMarkerPartitionResult27.of (_v : Int16) (x : Val) (_t0 : WritableTxnMarkerPartitionResult27) : WritableTxnMarkerPartitionResult27 :=
  { PartitionIndex := (x.get "PartitionIndex").toInt32,
    ErrorCode := (x.get "ErrorCode").toInt16 }

theorem WritableTxnMarkerPartitionResult27.decodes {v : Int16} (hv : 0 ≤ v) (x : Val) (h : Protocol.WritableTxnMarkerPartitionResult.Valid false v x) (t0 : WritableTxnMarkerPartitionResult27) :
    Reads (WritableTxnMarkerPartitionResult27.decode v t0) (Protocol.WritableTxnMarkerPartitionResult.wire false v x) (WritableTxnMarkerPartitionResult27.of v x t0) :=
  Reads.congr (((Step.field (set := fun (t : WritableTxnMarkerPartitionResult27) x => { t with PartitionIndex := x }) (read_int32 (Fields.Valid.head (h) hv)))
      |>.andThen (Step.field (set := fun (t : WritableTxnMarkerPartitionResult27) x => { t with ErrorCode := x }) (read_int16 (Fields.Valid.head (Fields.Valid.tail h) hv))) : Step _ _ _) t0)
    (Writes.eq (fs := Protocol.WritableTxnMarkerPartitionResult) (v := v) (x := x) <| Writes.all hv rfl <| Writes.all hv rfl <| Writes.done).symm rfl

theorem WritableTxnMarkerPartitionResult27.parses {v : Int16} (hv : 0 ≤ v) (t0 : WritableTxnMarkerPartitionResult27) :
    Parses (WritableTxnMarkerPartitionResult27.decode v t0) ((Ty.struct Protocol.WritableTxnMarkerPartitionResult).parse v) (fun x => WritableTxnMarkerPartitionResult27.of v x t0) :=
  FParses.parses (fs := Protocol.WritableTxnMarkerPartitionResult)
    (FParses.field hv (set := fun (t : WritableTxnMarkerPartitionResult27) x => { t with PartitionIndex := x }) par_int32 <|
    FParses.field hv (set := fun (t : WritableTxnMarkerPartitionResult27) x => { t with ErrorCode := x }) par_int16 <|
    FParses.done)
    (by simp only [WritableTxnMarkerPartitionResult27.decode, Dec.andThen_nop]) (Fields.distinct_nodup _ (by decide +kernel)) (fun _ _ => rfl) t0

theorem WritableTxnMarkerPartitionResult27.shown {v : Int16} (hv : 0 ≤ v) (x : Val) (h : Protocol.WritableTxnMarkerPartitionResult.Typed v x) :
    Protocol.WritableTxnMarkerPartitionResult.shows v x (WritableTxnMarkerPartitionResult27.val (WritableTxnMarkerPartitionResult27.of v x {})) = true :=
  Shows.all hv (show_int32 (Fields.Typed.head (h) hv)) <|
    Shows.all hv (show_int16 (Fields.Typed.head (Fields.Typed.tail h) hv)) <|
    rfl

/-- `WritableTxnMarkerTopicResult27` as a value of the protocol. -/
def WritableTxnMarkerTopicResult27.val (t : WritableTxnMarkerTopicResult27) : Val :=
  .struct [("Name", .str (some t.Name)),
    ("Partitions", ofStructs WritableTxnMarkerPartitionResult27.val t.Partitions)]

theorem WritableTxnMarkerTopicResult27.conforms {v : Int16} (hv : 0 ≤ v) (t : WritableTxnMarkerTopicResult27) :
    Protocol.WritableTxnMarkerTopicResult.wire false v (WritableTxnMarkerTopicResult27.val t) = WritableTxnMarkerTopicResult27.wire v t :=
  Writes.eq <|
    Writes.all hv (Protocol.wire_string v t.Name) <|
    Writes.all hv (Protocol.wire_structs v (WritableTxnMarkerPartitionResult27.conforms hv) t.Partitions) <|
    Writes.done

/-- There is nothing that may not be nil. -/
def WritableTxnMarkerTopicResult27.Full (_v : Int16) (_t : WritableTxnMarkerTopicResult27) : Prop := True

theorem WritableTxnMarkerTopicResult27.valid {v : Int16} (hv : 0 ≤ v) (t : WritableTxnMarkerTopicResult27) (h : t.Fits v) (_hf : t.Full v) :
    Protocol.WritableTxnMarkerTopicResult.Valid true v (WritableTxnMarkerTopicResult27.val t) :=
  Valids.all (valid_string (h.Name)) <|
    Valids.all (valid_structs (fun y h hf => WritableTxnMarkerPartitionResult27.valid hv y h hf) (h.Partitions) (fun _ _ => trivial)) <|
    trivial

/-- What `WritableTxnMarkerTopicResult27` holds after reading the value `x` into `t0`. -/
def WritableTxnMarkerTopicResult27.of (v : Int16) (x : Val) (t0 : WritableTxnMarkerTopicResult27) : WritableTxnMarkerTopicResult27 :=
  { Name := (x.get "Name").toStr,
    Partitions := (x.get "Partitions").toSliceOr (fun y => WritableTxnMarkerPartitionResult27.of v y {}) t0.Partitions }

theorem WritableTxnMarkerTopicResult27.decodes {v : Int16} (hv : 0 ≤ v) (x : Val) (h : Protocol.WritableTxnMarkerTopicResult.Valid false v x) (t0 : WritableTxnMarkerTopicResult27) :
    Reads (WritableTxnMarkerTopicResult27.decode v t0) (Protocol.WritableTxnMarkerTopicResult.wire false v x) (WritableTxnMarkerTopicResult27.of v x t0) :=
  Reads.congr (((Step.field (set := fun (t : WritableTxnMarkerTopicResult27) x => { t with Name := x }) (read_string (Fields.Valid.head (h) hv)))
      |>.andThen (Step.readStructs (get := fun (t : WritableTxnMarkerTopicResult27) => t.Partitions) (set := fun (t : WritableTxnMarkerTopicResult27) x => { t with Partitions := x }) (fun y hy => WritableTxnMarkerPartitionResult27.decodes hv y hy {}) (Fields.Valid.head (Fields.Valid.tail h) hv)) : Step _ _ _) t0)
    (Writes.eq (fs := Protocol.WritableTxnMarkerTopicResult) (v := v) (x := x) <| Writes.all hv rfl <| Writes.all hv rfl <| Writes.done).symm rfl

theorem WritableTxnMarkerTopicResult27.parses {v : Int16} (hv : 0 ≤ v) (t0 : WritableTxnMarkerTopicResult27) :
    Parses (WritableTxnMarkerTopicResult27.decode v t0) ((Ty.struct Protocol.WritableTxnMarkerTopicResult).parse v) (fun x => WritableTxnMarkerTopicResult27.of v x t0) :=
  FParses.parses (fs := Protocol.WritableTxnMarkerTopicResult)
    (FParses.field hv (set := fun (t : WritableTxnMarkerTopicResult27) x => { t with Name := x }) par_string <|
    FParses.structs hv (get := fun (t : WritableTxnMarkerTopicResult27) => t.Partitions) (set := fun (t : WritableTxnMarkerTopicResult27) x => { t with Partitions := x }) (WritableTxnMarkerPartitionResult27.parses hv {}) <|
    FParses.done)
    (by simp only [WritableTxnMarkerTopicResult27.decode, Dec.andThen_nop]) (Fields.distinct_nodup _ (by decide +kernel)) (fun _ _ => rfl) t0

theorem WritableTxnMarkerTopicResult27.shown {v : Int16} (hv : 0 ≤ v) (x : Val) (h : Protocol.WritableTxnMarkerTopicResult.Typed v x) :
    Protocol.WritableTxnMarkerTopicResult.shows v x (WritableTxnMarkerTopicResult27.val (WritableTxnMarkerTopicResult27.of v x {})) = true :=
  Shows.all hv (show_string (Fields.Typed.head (h) hv)) <|
    Shows.all hv (show_structs (f := WritableTxnMarkerPartitionResult27.val) (g := fun y => WritableTxnMarkerPartitionResult27.of v y {}) (fun y hy => WritableTxnMarkerPartitionResult27.shown hv y hy) (Fields.Typed.head (Fields.Typed.tail h) hv)) <|
    rfl

/-- `WritableTxnMarkerResult27` as a value of the protocol. -/
def WritableTxnMarkerResult27.val (t : WritableTxnMarkerResult27) : Val :=
  .struct [("ProducerId", .int64 t.ProducerId),
    ("Topics", ofStructs WritableTxnMarkerTopicResult27.val t.Topics)]

theorem WritableTxnMarkerResult27.conforms {v : Int16} (hv : 0 ≤ v) (t : WritableTxnMarkerResult27) :
    Protocol.WritableTxnMarkerResult.wire false v (WritableTxnMarkerResult27.val t) = WritableTxnMarkerResult27.wire v t :=
  Writes.eq <|
    Writes.all hv (Protocol.wire_int64 v t.ProducerId) <|
    Writes.all hv (Protocol.wire_structs v (WritableTxnMarkerTopicResult27.conforms hv) t.Topics) <|
    Writes.done

/-- There is nothing that may not be nil. -/
def WritableTxnMarkerResult27.Full (_v : Int16) (_t : WritableTxnMarkerResult27) : Prop := True

theorem WritableTxnMarkerResult27.valid {v : Int16} (hv : 0 ≤ v) (t : WritableTxnMarkerResult27) (h : t.Fits v) (_hf : t.Full v) :
    Protocol.WritableTxnMarkerResult.Valid true v (WritableTxnMarkerResult27.val t) :=
  Valids.all trivial <|
    Valids.all (valid_structs (fun y h hf => WritableTxnMarkerTopicResult27.valid hv y h hf) (h.Topics) (fun _ _ => trivial)) <|
    trivial

/-- What `WritableTxnMarkerResult27` holds after reading the value `x` into `t0`. -/
def WritableTxnMarkerResult27.of (v : Int16) (x : Val) (t0 : WritableTxnMarkerResult27) : WritableTxnMarkerResult27 :=
  { ProducerId := (x.get "ProducerId").toInt64,
    Topics := (x.get "Topics").toSliceOr (fun y => WritableTxnMarkerTopicResult27.of v y {}) t0.Topics }

theorem WritableTxnMarkerResult27.decodes {v : Int16} (hv : 0 ≤ v) (x : Val) (h : Protocol.WritableTxnMarkerResult.Valid false v x) (t0 : WritableTxnMarkerResult27) :
    Reads (WritableTxnMarkerResult27.decode v t0) (Protocol.WritableTxnMarkerResult.wire false v x) (WritableTxnMarkerResult27.of v x t0) :=
  Reads.congr (((Step.field (set := fun (t : WritableTxnMarkerResult27) x => { t with ProducerId := x }) (read_int64 (Fields.Valid.head (h) hv)))
      |>.andThen (Step.readStructs (get := fun (t : WritableTxnMarkerResult27) => t.Topics) (set := fun (t : WritableTxnMarkerResult27) x => { t with Topics := x }) (fun y hy => WritableTxnMarkerTopicResult27.decodes hv y hy {}) (Fields.Valid.head (Fields.Valid.tail h) hv)) : Step _ _ _) t0)
    (Writes.eq (fs := Protocol.WritableTxnMarkerResult) (v := v) (x := x) <| Writes.all hv rfl <| Writes.all hv rfl <| Writes.done).symm rfl

theorem WritableTxnMarkerResult27.parses {v : Int16} (hv : 0 ≤ v) (t0 : WritableTxnMarkerResult27) :
    Parses (WritableTxnMarkerResult27.decode v t0) ((Ty.struct Protocol.WritableTxnMarkerResult).parse v) (fun x => WritableTxnMarkerResult27.of v x t0) :=
  FParses.parses (fs := Protocol.WritableTxnMarkerResult)
    (FParses.field hv (set := fun (t : WritableTxnMarkerResult27) x => { t with ProducerId := x }) par_int64 <|
    FParses.structs hv (get := fun (t : WritableTxnMarkerResult27) => t.Topics) (set := fun (t : WritableTxnMarkerResult27) x => { t with Topics := x }) (WritableTxnMarkerTopicResult27.parses hv {}) <|
    FParses.done)
    (by simp only [WritableTxnMarkerResult27.decode, Dec.andThen_nop]) (Fields.distinct_nodup _ (by decide +kernel)) (fun _ _ => rfl) t0

theorem WritableTxnMarkerResult27.shown {v : Int16} (hv : 0 ≤ v) (x : Val) (h : Protocol.WritableTxnMarkerResult.Typed v x) :
    Protocol.WritableTxnMarkerResult.shows v x (WritableTxnMarkerResult27.val (WritableTxnMarkerResult27.of v x {})) = true :=
  Shows.all hv (show_int64 (Fields.Typed.head (h) hv)) <|
    Shows.all hv (show_structs (f := WritableTxnMarkerTopicResult27.val) (g := fun y => WritableTxnMarkerTopicResult27.of v y {}) (fun y hy => WritableTxnMarkerTopicResult27.shown hv y hy) (Fields.Typed.head (Fields.Typed.tail h) hv)) <|
    rfl

/-- `WriteTxnMarkersResponse` as a value of the protocol. -/
def WriteTxnMarkersResponse.val (t : WriteTxnMarkersResponse) : Val :=
  .struct [("Markers", ofStructs WritableTxnMarkerResult27.val t.Markers)]

theorem WriteTxnMarkersResponse.conforms {v : Int16} (hv : 0 ≤ v) (t : WriteTxnMarkersResponse) :
    Protocol.WriteTxnMarkersResponse.wire false v (WriteTxnMarkersResponse.val t) = WriteTxnMarkersResponse.wire v t :=
  Writes.eq <|
    Writes.all hv (Protocol.wire_structs v (WritableTxnMarkerResult27.conforms hv) t.Markers) <|
    Writes.done

/-- There is nothing that may not be nil. -/
def WriteTxnMarkersResponse.Full (_v : Int16) (_t : WriteTxnMarkersResponse) : Prop := True

theorem WriteTxnMarkersResponse.valid {v : Int16} (hv : 0 ≤ v) (t : WriteTxnMarkersResponse) (h : t.Fits v) (_hf : t.Full v) :
    Protocol.WriteTxnMarkersResponse.Valid true v (WriteTxnMarkersResponse.val t) :=
  Valids.all (valid_structs (fun y h hf => WritableTxnMarkerResult27.valid hv y h hf) (h.Markers) (fun _ _ => trivial)) <|
    trivial

/-- What `WriteTxnMarkersResponse` holds after reading the value `x` into `t0`. -/
def WriteTxnMarkersResponse.of (v : Int16) (x : Val) (t0 : WriteTxnMarkersResponse) : WriteTxnMarkersResponse :=
  { Markers := (x.get "Markers").toSliceOr (fun y => WritableTxnMarkerResult27.of v y {}) t0.Markers }

theorem WriteTxnMarkersResponse.decodes {v : Int16} (hv : 0 ≤ v) (x : Val) (h : Protocol.WriteTxnMarkersResponse.Valid false v x) (t0 : WriteTxnMarkersResponse) :
    Reads (WriteTxnMarkersResponse.decode v t0) (Protocol.WriteTxnMarkersResponse.wire false v x) (WriteTxnMarkersResponse.of v x t0) :=
  Reads.congr (((Step.readStructs (get := fun (t : WriteTxnMarkersResponse) => t.Markers) (set := fun (t : WriteTxnMarkersResponse) x => { t with Markers := x }) (fun y hy => WritableTxnMarkerResult27.decodes hv y hy {}) (Fields.Valid.head (h) hv)) : Step _ _ _) t0)
    (Writes.eq (fs := Protocol.WriteTxnMarkersResponse) (v := v) (x := x) <| Writes.all hv rfl <| Writes.done).symm rfl

theorem WriteTxnMarkersResponse.parses {v : Int16} (hv : 0 ≤ v) (t0 : WriteTxnMarkersResponse) :
    Parses (WriteTxnMarkersResponse.decode v t0) ((Ty.struct Protocol.WriteTxnMarkersResponse).parse v) (fun x => WriteTxnMarkersResponse.of v x t0) :=
  FParses.parses (fs := Protocol.WriteTxnMarkersResponse)
    (FParses.structs hv (get := fun (t : WriteTxnMarkersResponse) => t.Markers) (set := fun (t : WriteTxnMarkersResponse) x => { t with Markers := x }) (WritableTxnMarkerResult27.parses hv {}) <|
    FParses.done)
    (by simp only [WriteTxnMarkersResponse.decode, Dec.andThen_nop]) (Fields.distinct_nodup _ (by decide +kernel)) (fun _ _ => rfl) t0

theorem WriteTxnMarkersResponse.shown {v : Int16} (hv : 0 ≤ v) (x : Val) (h : Protocol.WriteTxnMarkersResponse.Typed v x) :
    Protocol.WriteTxnMarkersResponse.shows v x (WriteTxnMarkersResponse.val (WriteTxnMarkersResponse.of v x {})) = true :=
  Shows.all hv (show_structs (f := WritableTxnMarkerResult27.val) (g := fun y => WritableTxnMarkerResult27.of v y {}) (fun y hy => WritableTxnMarkerResult27.shown hv y hy) (Fields.Typed.head (h) hv)) <|
    rfl

end Kafka.Msg
