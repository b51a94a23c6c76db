import Verif.Protocol.Conform.AddPartitionsToTxn
/-!
Generated by tools/gen_protocol.py: the AddPartitionsToTxn request is read as the protocol says.
-/
namespace Kafka.Msg

open Protocol

/-- What `AddPartitionsToTxnTopic24` holds after reading the value `x` into `t0`. -/
def AddPartitionsToTxnTopic24.of (_v : Int16) (x : Val) (_t0 : AddPartitionsToTxnTopic24) : AddPartitionsToTxnTopic24 :=
  { Name := (x.get "Name").toStr,
    Partitions := (x.get "Partitions").toSlice Val.toInt32 }

theorem AddPartitionsToTxnTopic24.decodes {v : Int16} (hv : 0 ≤ v) (x : Val) (h : Protocol.AddPartitionsToTxnTopic.Valid false v x) (t0 : AddPartitionsToTxnTopic24) :
    Reads (AddPartitionsToTxnTopic24.decode v t0) (Protocol.AddPartitionsToTxnTopic.wire false v x) (AddPartitionsToTxnTopic24.of v x t0) :=
  Reads.congr (((Step.field (set := fun (t : AddPartitionsToTxnTopic24) x => { t with Name := x }) (read_string (Fields.Valid.head (h) hv)))
      |>.andThen (Step.field (set := fun (t : AddPartitionsToTxnTopic24) x => { t with Partitions := x }) (read_int32Array (Fields.Valid.head (Fields.Valid.tail h) hv))) : Step _ _ _) t0)
    (Writes.eq (fs := Protocol.AddPartitionsToTxnTopic) (v := v) (x := x) <| Writes.all hv rfl <| Writes.all hv rfl <| Writes.done).symm rfl

theorem AddPartitionsToTxnTopic24.parses {v : Int16} (hv : 0 ≤ v) (t0 : AddPartitionsToTxnTopic24) :
    Parses (AddPartitionsToTxnTopic24.decode v t0) ((Ty.struct Protocol.AddPartitionsToTxnTopic).parse v) (fun x => AddPartitionsToTxnTopic24.of v x t0) :=
  FParses.parses (fs := Protocol.AddPartitionsToTxnTopic)
    (FParses.field hv (set := fun (t : AddPartitionsToTxnTopic24) x => { t with Name := x }) par_string <|
    FParses.field hv (set := fun (t : AddPartitionsToTxnTopic24) x => { t with Partitions := x }) par_int32Array <|
    FParses.done)
    (by simp only [AddPartitionsToTxnTopic24.decode, Dec.andThen_nop]) (Fields.distinct_nodup _ (by decide +kernel)) (fun _ _ => rfl) t0

theorem AddPartitionsToTxnTopic24.shown {v : Int16} (hv : 0 ≤ v) (x : Val) (h : Protocol.AddPartitionsToTxnTopic.Typed v x) :
    Protocol.AddPartitionsToTxnTopic.shows v x (AddPartitionsToTxnTopic24.val (AddPartitionsToTxnTopic24.of v x {})) = true :=
  Shows.all hv (show_string (Fields.Typed.head (h) hv)) <|
    Shows.all hv (show_int32Array (Fields.Typed.head (Fields.Typed.tail h) hv)) <|
    rfl

/-- What `AddPartitionsToTxnRequest` holds after reading the value `x` into `t0`. -/
def AddPartitionsToTxnRequest.of (v : Int16) (x : Val) (t0 : AddPartitionsToTxnRequest) : AddPartitionsToTxnRequest :=
  { TransactionalId := (x.get "TransactionalId").toStr,
    ProducerId := (x.get "ProducerId").toInt64,
    ProducerEpoch := (x.get "ProducerEpoch").toInt16,
    Topics := (x.get "Topics").toSliceOr (fun y => AddPartitionsToTxnTopic24.of v y {}) t0.Topics }

theorem AddPartitionsToTxnRequest.decodes {v : Int16} (hv : 0 ≤ v) (x : Val) (h : Protocol.AddPartitionsToTxnRequest.Valid false v x) (t0 : AddPartitionsToTxnRequest) :
    Reads (AddPartitionsToTxnRequest.decode v t0) (Protocol.AddPartitionsToTxnRequest.wire false v x) (AddPartitionsToTxnRequest.of v x t0) :=
  Reads.congr (((Step.field (set := fun (t : AddPartitionsToTxnRequest) x => { t with TransactionalId := x }) (read_string (Fields.Valid.head (h) hv)))
      |>.andThen (Step.field (set := fun (t : AddPartitionsToTxnRequest) x => { t with ProducerId := x }) (read_int64 (Fields.Valid.head (Fields.Valid.tail h) hv)))
      |>.andThen (Step.field (set := fun (t : AddPartitionsToTxnRequest) x => { t with ProducerEpoch := x }) (read_int16 (Fields.Valid.head (Fields.Valid.tail (Fields.Valid.tail h)) hv)))
      |>.andThen (Step.readStructs (get := fun (t : AddPartitionsToTxnRequest) => t.Topics) (set := fun (t : AddPartitionsToTxnRequest) x => { t with Topics := x }) (fun y hy => AddPartitionsToTxnTopic24.decodes hv y hy {}) (Fields.Valid.head (Fields.Valid.tail (Fields.Valid.tail (Fields.Valid.tail h))) hv)) : Step _ _ _) t0)
    (Writes.eq (fs := Protocol.AddPartitionsToTxnRequest) (v := v) (x := x) <| Writes.all hv rfl <| Writes.all hv rfl <| Writes.all hv rfl <| Writes.all hv rfl <| Writes.done).symm rfl

theorem AddPartitionsToTxnRequest.parses {v : Int16} (hv : 0 ≤ v) (t0 : AddPartitionsToTxnRequest) :
    Parses (AddPartitionsToTxnRequest.decode v t0) ((Ty.struct Protocol.AddPartitionsToTxnRequest).parse v) (fun x => AddPartitionsToTxnRequest.of v x t0) :=
  FParses.parses (fs := Protocol.AddPartitionsToTxnRequest)
    (FParses.field hv (set := fun (t : AddPartitionsToTxnRequest) x => { t with TransactionalId := x }) par_string <|
    FParses.field hv (set := fun (t : AddPartitionsToTxnRequest) x => { t with ProducerId := x }) par_int64 <|
    FParses.field hv (set := fun (t : AddPartitionsToTxnRequest) x => { t with ProducerEpoch := x }) par_int16 <|
    FParses.structs hv (get := fun (t : AddPartitionsToTxnRequest) => t.Topics) (set := fun (t : AddPartitionsToTxnRequest) x => { t with Topics := x }) (AddPartitionsToTxnTopic24.parses hv {}) <|
    FParses.done)
    (by simp only [AddPartitionsToTxnRequest.decode, Dec.andThen_assoc, Dec.andThen_nop]) (Fields.distinct_nodup _ (by decide +kernel)) (fun _ _ => rfl) t0

theorem AddPartitionsToTxnRequest.shown {v : Int16} (hv : 0 ≤ v) (x : Val) (h : Protocol.AddPartitionsToTxnRequest.Typed v x) :
    Protocol.AddPartitionsToTxnRequest.shows v x (AddPartitionsToTxnRequest.val (AddPartitionsToTxnRequest.of v x {})) = true :=
  Shows.all hv (show_string (Fields.Typed.head (h) hv)) <|
    Shows.all hv (show_int64 (Fields.Typed.head (Fields.Typed.tail h) hv)) <|
    Shows.all hv (show_int16 (Fields.Typed.head (Fields.Typed.tail (Fields.Typed.tail h)) hv)) <|
    Shows.all hv (show_structs (f := AddPartitionsToTxnTopic24.val) (g := fun y => AddPartitionsToTxnTopic24.of v y {}) (fun y hy => AddPartitionsToTxnTopic24.shown hv y hy) (Fields.Typed.head (Fields.Typed.tail (Fields.Typed.tail (Fields.Typed.tail h))) hv)) <|
    rfl

end Kafka.Msg
