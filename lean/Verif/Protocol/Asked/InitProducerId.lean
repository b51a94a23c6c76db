import Verif.Protocol.Conform.InitProducerId
/-!
Generated by tools/gen_protocol.py: the InitProducerId request is read as the protocol says.
-/
namespace Kafka.Msg

open Protocol

/-- What `InitProducerIdRequest` holds after reading the value `x` into `t0`. -/
def InitProducerIdRequest.of (_v : Int16) (x : Val) (_t0 : InitProducerIdRequest) : InitProducerIdRequest :=
  { TransactionalId := (x.get "TransactionalId").toStr,
    TransactionTimeoutMs := (x.get "TransactionTimeoutMs").toInt32 }

theorem InitProducerIdRequest.decodes {v : Int16} (hv : 0 ≤ v) (x : Val) (h : Protocol.InitProducerIdRequest.Valid false v x) (t0 : InitProducerIdRequest) :
    Reads (InitProducerIdRequest.decode v t0) (Protocol.InitProducerIdRequest.wire false v x) (InitProducerIdRequest.of v x t0) :=
  Reads.congr (((Step.field (set := fun (t : InitProducerIdRequest) x => { t with TransactionalId := x }) (read_string (Fields.Valid.head (h) hv)))
      |>.andThen (Step.field (set := fun (t : InitProducerIdRequest) x => { t with TransactionTimeoutMs := x }) (read_int32 (Fields.Valid.head (Fields.Valid.tail h) hv))) : Step _ _ _) t0)
    (Writes.eq (fs := Protocol.InitProducerIdRequest) (v := v) (x := x) <| Writes.all hv rfl <| Writes.all hv rfl <| Writes.done).symm rfl

theorem InitProducerIdRequest.parses {v : Int16} (hv : 0 ≤ v) (t0 : InitProducerIdRequest) :
    Parses (InitProducerIdRequest.decode v t0) ((Ty.struct Protocol.InitProducerIdRequest).parse v) (fun x => InitProducerIdRequest.of v x t0) :=
  FParses.parses (fs := Protocol.InitProducerIdRequest)
    (FParses.field hv (set := fun (t : InitProducerIdRequest) x => { t with TransactionalId := x }) par_string <|
    FParses.field hv (set := fun (t : InitProducerIdRequest) x => { t with TransactionTimeoutMs := x }) par_int32 <|
    FParses.done)
    (by simp only [InitProducerIdRequest.decode, Dec.andThen_nop]) (Fields.distinct_nodup _ (by decide +kernel)) (fun _ _ => rfl) t0

theorem InitProducerIdRequest.shown {v : Int16} (hv : 0 ≤ v) (x : Val) (h : Protocol.InitProducerIdRequest.Typed v x) :
    Protocol.InitProducerIdRequest.shows v x (InitProducerIdRequest.val (InitProducerIdRequest.of v x {})) = true :=
  Shows.all hv (show_string (Fields.Typed.head (h) hv)) <|
    Shows.all hv (show_int32 (Fields.Typed.head (Fields.Typed.tail h) hv)) <|
    rfl

end Kafka.Msg
