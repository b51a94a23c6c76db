import Verif.Protocol.Conform.EndTxn
/-!
Generated by tools/gen_protocol.py: the EndTxn request is read as the protocol says.
-/
namespace Kafka.Msg

open Protocol

/-- What `EndTxnRequest` holds after reading the value `x` into `t0`. -/
def EndTxnRequest.of (_v : Int16) (x : Val) (_t0 : EndTxnRequest) : EndTxnRequest :=
  { TransactionalId := (x.get "TransactionalId").toStr,
    ProducerId := (x.get "ProducerId").toInt64,
    ProducerEpoch := (x.get "ProducerEpoch").toInt16,
    Committed := (x.get "Committed").toBool }

theorem EndTxnRequest.decodes {v : Int16} (hv : 0 ≤ v) (x : Val) (h : Protocol.EndTxnRequest.Valid false v x) (t0 : EndTxnRequest) :
    Reads (EndTxnRequest.decode v t0) (Protocol.EndTxnRequest.wire false v x) (EndTxnRequest.of v x t0) :=
  Reads.congr (((Step.field (set := fun (t : EndTxnRequest) x => { t with TransactionalId := x }) (read_string (Fields.Valid.head (h) hv)))
      |>.andThen (Step.field (set := fun (t : EndTxnRequest) x => { t with ProducerId := x }) (read_int64 (Fields.Valid.head (Fields.Valid.tail h) hv)))
      |>.andThen (Step.field (set := fun (t : EndTxnRequest) x => { t with ProducerEpoch := x }) (read_int16 (Fields.Valid.head (Fields.Valid.tail (Fields.Valid.tail h)) hv)))
      |>.andThen (Step.field (set := fun (t : EndTxnRequest) x => { t with Committed := x }) (read_bool (Fields.Valid.head (Fields.Valid.tail (Fields.Valid.tail (Fields.Valid.tail h))) hv))) : Step _ _ _) t0)
    (Writes.eq (fs := Protocol.EndTxnRequest) (v := v) (x := x) <| Writes.all hv rfl <| Writes.all hv rfl <| Writes.all hv rfl <| Writes.all hv rfl <| Writes.done).symm rfl

theorem EndTxnRequest.parses {v : Int16} (hv : 0 ≤ v) (t0 : EndTxnRequest) :
    Parses (EndTxnRequest.decode v t0) ((Ty.struct Protocol.EndTxnRequest).parse v) (fun x => EndTxnRequest.of v x t0) :=
  FParses.parses (fs := Protocol.EndTxnRequest)
    (FParses.field hv (set := fun (t : EndTxnRequest) x => { t with TransactionalId := x }) par_string <|
    FParses.field hv (set := fun (t : EndTxnRequest) x => { t with ProducerId := x }) par_int64 <|
    FParses.field hv (set := fun (t : EndTxnRequest) x => { t with ProducerEpoch := x }) par_int16 <|
    FParses.field hv (set := fun (t : EndTxnRequest) x => { t with Committed := x }) par_bool <|
    FParses.done)
    (by simp only [EndTxnRequest.decode, Dec.andThen_assoc, Dec.andThen_nop]) (Fields.distinct_nodup _ (by decide +kernel)) (fun _ _ => rfl) t0

theorem EndTxnRequest.shown {v : Int16} (hv : 0 ≤ v) (x : Val) (h : Protocol.EndTxnRequest.Typed v x) :
    Protocol.EndTxnRequest.shows v x (EndTxnRequest.val (EndTxnRequest.of v x {})) = true :=
  Shows.all hv (show_string (Fields.Typed.head (h) hv)) <|
    Shows.all hv (show_int64 (Fields.Typed.head (Fields.Typed.tail h) hv)) <|
    Shows.all hv (show_int16 (Fields.Typed.head (Fields.Typed.tail (Fields.Typed.tail h)) hv)) <|
    Shows.all hv (show_bool (Fields.Typed.head (Fields.Typed.tail (Fields.Typed.tail (Fields.Typed.tail h))) hv)) <|
    rfl

end Kafka.Msg
