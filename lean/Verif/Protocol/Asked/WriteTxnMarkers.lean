import Verif.Protocol.Conform.WriteTxnMarkers
/-!
Generated by tools/gen_protocol.py: the WriteTxnMarkers request is read as the protocol says.
-/
namespace Kafka.Msg

open Protocol

/-- What `WritableTxnMarkerTopic27` holds after reading the value `x` into `t0`. -/
def WritableTxnMarkerTopic27.of (_v : Int16) (x : Val) (_t0 : WritableTxnMarkerTopic27) : WritableTxnMarkerTopic27 :=
  { Name := (x.get "Name").toStr,
    PartitionIndexes := (x.get "PartitionIndexes").toSlice Val.toInt32 }

theorem WritableTxnMarkerTopic27.decodes {v : Int16} (hv : 0 ≤ v) (x : Val) (h : Protocol.WritableTxnMarkerTopic.Valid false v x) (t0 : WritableTxnMarkerTopic27) :
    Reads (WritableTxnMarkerTopic27.decode v t0) (Protocol.WritableTxnMarkerTopic.wire false v x) (WritableTxnMarkerTopic27.of v x t0) :=
  Reads.congr (((Step.field (set := fun (t : WritableTxnMarkerTopic27) x => { t with Name := x }) (read_string (Fields.Valid.head (h) hv)))
      |>.andThen (Step.field (set := fun (t : WritableTxnMarkerTopic27) x => { t with PartitionIndexes := x }) (read_int32Array (Fields.Valid.head (Fields.Valid.tail h) hv))) : Step _ _ _) t0)
    (Writes.eq (fs := Protocol.WritableTxnMarkerTopic) (v := v) (x := x) <| Writes.all hv rfl <| Writes.all hv rfl <| Writes.done).symm rfl

theorem WritableTxnMarkerTopic27.parses {v : Int16} (hv : 0 ≤ v) (t0 : WritableTxnMarkerTopic27) :
    Parses (WritableTxnMarkerTopic27.decode v t0) ((Ty.struct Protocol.WritableTxnMarkerTopic).parse v) (fun x => WritableTxnMarkerTopic27.of v x t0) :=
  FParses.parses (fs := Protocol.WritableTxnMarkerTopic)
    (FParses.field hv (set := fun (t : WritableTxnMarkerTopic27) x => { t with Name := x }) par_string <|
    FParses.field hv (set := fun (t : WritableTxnMarkerTopic27) x => { t with PartitionIndexes := x }) par_int32Array <|
    FParses.done)
    (by simp only [WritableTxnMarkerTopic27.decode, Dec.andThen_nop]) (Fields.distinct_nodup _ (by decide +kernel)) (fun _ _ => rfl) t0

theorem WritableTxnMarkerTopic27.shown {v : Int16} (hv : 0 ≤ v) (x : Val) (h : Protocol.WritableTxnMarkerTopic.Typed v x) :
    Protocol.WritableTxnMarkerTopic.shows v x (WritableTxnMarkerTopic27.val (WritableTxnMarkerTopic27.of v x {})) = true :=
  Shows.all hv (show_string (Fields.Typed.head (h) hv)) <|
    Shows.all hv (show_int32Array (Fields.Typed.head (Fields.Typed.tail h) hv)) <|
    rfl

/-- What `WritableTxnMarker27` holds after reading the value `x` into `t0`. -/
def WritableTxnMarker27.of (v : Int16) (x : Val) (t0 : WritableTxnMarker27) : WritableTxnMarker27 :=
  { ProducerId := (x.get "ProducerId").toInt64,
    ProducerEpoch := (x.get "ProducerEpoch").toInt16,
    TransactionResult := (x.get "TransactionResult").toBool,
    Topics := (x.get "Topics").toSliceOr (fun y => WritableTxnMarkerTopic27.of v y {}) t0.Topics,
    CoordinatorEpoch := (x.get "CoordinatorEpoch").toInt32 }

theorem WritableTxnMarker27.decodes {v : Int16} (hv : 0 ≤ v) (x : Val) (h : Protocol.WritableTxnMarker.Valid false v x) (t0 : WritableTxnMarker27) :
    Reads (WritableTxnMarker27.decode v t0) (Protocol.WritableTxnMarker.wire false v x) (WritableTxnMarker27.of v x t0) :=
  Reads.congr (((Step.field (set := fun (t : WritableTxnMarker27) x => { t with ProducerId := x }) (read_int64 (Fields.Valid.head (h) hv)))
      |>.andThen (Step.field (set := fun (t : WritableTxnMarker27) x => { t with ProducerEpoch := x }) (read_int16 (Fields.Valid.head (Fields.Valid.tail h) hv)))
      |>.andThen (Step.field (set := fun (t : WritableTxnMarker27) x => { t with TransactionResult := x }) (read_bool (Fields.Valid.head (Fields.Valid.tail (Fields.Valid.tail h)) hv)))
      |>.andThen (Step.readStructs (get := fun (t : WritableTxnMarker27) => t.Topics) (set := fun (t : WritableTxnMarker27) x => { t with Topics := x }) (fun y hy => WritableTxnMarkerTopic27.decodes hv y hy {}) (Fields.Valid.head (Fields.Valid.tail (Fields.Valid.tail (Fields.Valid.tail h))) hv))
      |>.andThen (Step.field (set := fun (t : WritableTxnMarker27) x => { t with CoordinatorEpoch := x }) (read_int32 (Fields.Valid.head (Fields.Valid.tail (Fields.Valid.tail (Fields.Valid.tail (Fields.Valid.tail h)))) hv))) : Step _ _ _) t0)
    (Writes.eq (fs := Protocol.WritableTxnMarker) (v := v) (x := x) <| Writes.all hv rfl <| Writes.all hv rfl <| Writes.all hv rfl <| Writes.all hv rfl <| Writes.all hv rfl <| Writes.done).symm rfl

theorem WritableTxnMarker27.parses {v : Int16} (hv : 0 ≤ v) (t0 : WritableTxnMarker27) :
    Parses (WritableTxnMarker27.decode v t0) ((Ty.struct Protocol.WritableTxnMarker).parse v) (fun x => WritableTxnMarker27.of v x t0) :=
  FParses.parses (fs := Protocol.WritableTxnMarker)
    (FParses.field hv (set := fun (t : WritableTxnMarker27) x => { t with ProducerId := x }) par_int64 <|
    FParses.field hv (set := fun (t : WritableTxnMarker27) x => { t with ProducerEpoch := x }) par_int16 <|
    FParses.field hv (set := fun (t : WritableTxnMarker27) x => { t with TransactionResult := x }) par_bool <|
    FParses.structs hv (get := fun (t : WritableTxnMarker27) => t.Topics) (set := fun (t : WritableTxnMarker27) x => { t with Topics := x }) (WritableTxnMarkerTopic27.parses hv {}) <|
    FParses.field hv (set := fun (t : WritableTxnMarker27) x => { t with CoordinatorEpoch := x }) par_int32 <|
    FParses.done)
    (by simp only [WritableTxnMarker27.decode, Dec.andThen_assoc, Dec.andThen_nop]) (Fields.distinct_nodup _ (by decide +kernel)) (fun _ _ => rfl) t0

theorem WritableTxnMarker27.shown {v : Int16} (hv : 0 ≤ v) (x : Val) (h : Protocol.WritableTxnMarker.Typed v x) :
    Protocol.WritableTxnMarker.shows v x (WritableTxnMarker27.val (WritableTxnMarker27.of v x {})) = true :=
  Shows.all hv (show_int64 (Fields.Typed.head (h) hv)) <|
    Shows.all hv (show_int16 (Fields.Typed.head (Fields.Typed.tail h) hv)) <|
    Shows.all hv (show_bool (Fields.Typed.head (Fields.Typed.tail (Fields.Typed.tail h)) hv)) <|
    Shows.all hv (show_structs (f := WritableTxnMarkerTopic27.val) (g := fun y => WritableTxnMarkerTopic27.of v y {}) (fun y hy => WritableTxnMarkerTopic27.shown hv y hy) (Fields.Typed.head (Fields.Typed.tail (Fields.Typed.tail (Fields.Typed.tail h))) hv)) <|
    Shows.all hv (show_int32 (Fields.Typed.head (Fields.Typed.tail (Fields.Typed.tail (Fields.Typed.tail (Fields.Typed.tail h)))) hv)) <|
    rfl

/-- What `WriteTxnMarkersRequest` holds after reading the value `x` into `t0`. -/
def WriteTxnMarkersRequest.of (v : Int16) (x : Val) (t0 : WriteTxnMarkersRequest) : WriteTxnMarkersRequest :=
  { Markers := (x.get "Markers").toSliceOr (fun y => WritableTxnMarker27.of v y {}) t0.Markers }

theorem WriteTxnMarkersRequest.decodes {v : Int16} (hv : 0 ≤ v) (x : Val) (h : Protocol.WriteTxnMarkersRequest.Valid false v x) (t0 : WriteTxnMarkersRequest) :
    Reads (WriteTxnMarkersRequest.decode v t0) (Protocol.WriteTxnMarkersRequest.wire false v x) (WriteTxnMarkersRequest.of v x t0) :=
  Reads.congr (((Step.readStructs (get := fun (t : WriteTxnMarkersRequest) => t.Markers) (set := fun (t : WriteTxnMarkersRequest) x => { t with Markers := x }) (fun y hy => WritableTxnMarker27.decodes hv y hy {}) (Fields.Valid.head (h) hv)) : Step _ _ _) t0)
    (Writes.eq (fs := Protocol.WriteTxnMarkersRequest) (v := v) (x := x) <| Writes.all hv rfl <| Writes.done).symm rfl

theorem WriteTxnMarkersRequest.parses {v : Int16} (hv : 0 ≤ v) (t0 : WriteTxnMarkersRequest) :
    Parses (WriteTxnMarkersRequest.decode v t0) ((Ty.struct Protocol.WriteTxnMarkersRequest).parse v) (fun x => WriteTxnMarkersRequest.of v x t0) :=
  FParses.parses (fs := Protocol.WriteTxnMarkersRequest)
    (FParses.structs hv (get := fun (t : WriteTxnMarkersRequest) => t.Markers) (set := fun (t : WriteTxnMarkersRequest) x => { t with Markers := x }) (WritableTxnMarker27.parses hv {}) <|
    FParses.done)
    (by simp only [WriteTxnMarkersRequest.decode, Dec.andThen_nop]) (Fields.distinct_nodup _ (by decide +kernel)) (fun _ _ => rfl) t0

theorem WriteTxnMarkersRequest.shown {v : Int16} (hv : 0 ≤ v) (x : Val) (h : Protocol.WriteTxnMarkersRequest.Typed v x) :
    Protocol.WriteTxnMarkersRequest.shows v x (WriteTxnMarkersRequest.val (WriteTxnMarkersRequest.of v x {})) = true :=
  Shows.all hv (show_structs (f := WritableTxnMarker27.val) (g := fun y => WritableTxnMarker27.of v y {}) (fun y hy => WritableTxnMarker27.shown hv y hy) (Fields.Typed.head (h) hv)) <|
    rfl

end Kafka.Msg
