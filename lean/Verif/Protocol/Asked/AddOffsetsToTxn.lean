import Verif.Protocol.Conform.AddOffsetsToTxn
/-!
Generated by tools/gen_protocol.py: the AddOffsetsToTxn request is read as the protocol says.
-/
namespace Kafka.Msg

open Protocol

/-- What `AddOffsetsToTxnRequest` holds after reading the value `x` into `t0`. -/
def AddOffsetsToTxnRequest.of (_v : Int16) (x : Val) (_t0 : AddOffsetsToTxnRequest) : AddOffsetsToTxnRequest :=
  { TransactionalId := (x.get "TransactionalId").toStr,
    ProducerId := (x.get "ProducerId").toInt64,
    ProducerEpoch := (x.get "ProducerEpoch").toInt16,
    GroupId := (x.get "GroupId").toStr }

theorem AddOffsetsToTxnRequest.decodes {v : Int16} (hv : 0 ≤ v) (x : Val) (h : Protocol.AddOffsetsToTxnRequest.Valid false v x) (t0 : AddOffsetsToTxnRequest) :
    Reads (AddOffsetsToTxnRequest.decode v t0) (Protocol.AddOffsetsToTxnRequest.wire false v x) (AddOffsetsToTxnRequest.of v x t0) :=
  Reads.congr (((Step.field (set := fun (t : AddOffsetsToTxnRequest) x => { t with TransactionalId := x }) (read_string (Fields.Valid.head (h) hv)))
      |>.andThen (Step.field (set := fun (t : AddOffsetsToTxnRequest) x => { t with ProducerId := x }) (read_int64 (Fields.Valid.head (Fields.Valid.tail h) hv)))
      |>.andThen (Step.field (set := fun (t : AddOffsetsToTxnRequest) x => { t with ProducerEpoch := x }) (read_int16 (Fields.Valid.head (Fields.Valid.tail (Fields.Valid.tail h)) hv)))
      |>.andThen (Step.field (set := fun (t : AddOffsetsToTxnRequest) x => { t with GroupId := x }) (read_string (Fields.Valid.head (Fields.Valid.tail (Fields.Valid.tail (Fields.Valid.tail h))) hv))) : Step _ _ _) t0)
    (Writes.eq (fs := Protocol.AddOffsetsToTxnRequest) (v := v) (x := x) <| Writes.all hv rfl <| Writes.all hv rfl <| Writes.all hv rfl <| Writes.all hv rfl <| Writes.done).symm rfl

theorem AddOffsetsToTxnRequest.parses {v : Int16} (hv : 0 ≤ v) (t0 : AddOffsetsToTxnRequest) :
    Parses (AddOffsetsToTxnRequest.decode v t0) ((Ty.struct Protocol.AddOffsetsToTxnRequest).parse v) (fun x => AddOffsetsToTxnRequest.of v x t0) :=
  FParses.parses (fs := Protocol.AddOffsetsToTxnRequest)
    (FParses.field hv (set := fun (t : AddOffsetsToTxnRequest) x => { t with TransactionalId := x }) par_string <|
    FParses.field hv (set := fun (t : AddOffsetsToTxnRequest) x => { t with ProducerId := x }) par_int64 <|
    FParses.field hv (set := fun (t : AddOffsetsToTxnRequest) x => { t with ProducerEpoch := x }) par_int16 <|
    FParses.field hv (set := fun (t : AddOffsetsToTxnRequest) x => { t with GroupId := x }) par_string <|
    FParses.done)
    (by simp only [AddOffsetsToTxnRequest.decode, Dec.andThen_assoc, Dec.andThen_nop]) (Fields.distinct_nodup _ (by decide +kernel)) (fun _ _ => rfl) t0

theorem AddOffsetsToTxnRequest.shown {v : Int16} (hv : 0 ≤ v) (x : Val) (h : Protocol.AddOffsetsToTxnRequest.Typed v x) :
    Protocol.AddOffsetsToTxnRequest.shows v x (AddOffsetsToTxnRequest.val (AddOffsetsToTxnRequest.of v x {})) = true :=
  Shows.all hv (show_string (Fields.Typed.head (h) hv)) <|
    Shows.all hv (show_int64 (Fields.Typed.head (Fields.Typed.tail h) hv)) <|
    Shows.all hv (show_int16 (Fields.Typed.head (Fields.Typed.tail (Fields.Typed.tail h)) hv)) <|
    Shows.all hv (show_string (Fields.Typed.head (Fields.Typed.tail (Fields.Typed.tail (Fields.Typed.tail h))) hv)) <|
    rfl

end Kafka.Msg
