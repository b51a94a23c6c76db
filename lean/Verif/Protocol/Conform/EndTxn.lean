import Verif.Protocol.ParseLemmas
import Verif.Gen.Spec.EndTxn
/-!
Generated by tools/gen_protocol.py: the EndTxn messages are written and read as the protocol says.
-/
namespace Kafka.Msg

open Protocol

/-- `EndTxnRequest` as a value of the protocol. -/
def EndTxnRequest.val (t : EndTxnRequest) : Val :=
  .struct [("TransactionalId", .str (some t.TransactionalId)),
    ("ProducerId", .int64 t.ProducerId),
    ("ProducerEpoch", .int16 t.ProducerEpoch),
    ("Committed", .bool t.Committed)]

theorem EndTxnRequest.conforms {v : Int16} (hv : 0 ≤ v) (t : EndTxnRequest) :
    Protocol.EndTxnRequest.wire false v (EndTxnRequest.val t) = EndTxnRequest.wire v t :=
  Writes.eq <|
    Writes.all hv (Protocol.wire_string v t.TransactionalId) <|
    Writes.all hv (Protocol.wire_int64 v t.ProducerId) <|
    Writes.all hv (Protocol.wire_int16 v t.ProducerEpoch) <|
    Writes.all hv (Protocol.wire_bool v t.Committed) <|
    Writes.done

/-- There is nothing that may not be nil. -/
def EndTxnRequest.Full (_v : Int16) (_t : EndTxnRequest) : Prop := True

theorem EndTxnRequest.valid {v : Int16} (_hv : 0 ≤ v) (t : EndTxnRequest) (h : t.Fits v) (_hf : t.Full v) :
    Protocol.EndTxnRequest.Valid true v (EndTxnRequest.val t) :=
  Valids.all (valid_string (h.TransactionalId)) <|
    Valids.all trivial <|
    Valids.all trivial <|
    Valids.all trivial <|
    trivial

/-- `EndTxnResponse` as a value of the protocol. -/
def EndTxnResponse.val (t : EndTxnResponse) : Val :=
  .struct [("ThrottleTimeMs", .int32 t.ThrottleTimeMs),
    ("ErrorCode", .int16 t.ErrorCode)]

theorem EndTxnResponse.conforms {v : Int16} (hv : 0 ≤ v) (t : EndTxnResponse) :
    Protocol.EndTxnResponse.wire false v (EndTxnResponse.val t) = EndTxnResponse.wire v t :=
  Writes.eq <|
    Writes.all hv (Protocol.wire_int32 v t.ThrottleTimeMs) <|
    Writes.all hv (Protocol.wire_int16 v t.ErrorCode) <|
    Writes.done

/-- There is nothing that may not be nil. -/
def EndTxnResponse.Full (_v : Int16) (_t : EndTxnResponse) : Prop := True

theorem EndTxnResponse.valid {v : Int16} (_hv : 0 ≤ v) (t : EndTxnResponse) (_h : t.Fits v) (_hf : t.Full v) :
    Protocol.EndTxnResponse.Valid true v (EndTxnResponse.val t) :=
  Valids.all trivial <|
    Valids.all trivial <|
    trivial

/-- What `EndTxnResponse` holds after reading the value `x` into `t0`. -/
def EndTxnResponse.of (_v : Int16) (x : Val) (_t0 : EndTxnResponse) : EndTxnResponse :=
  { ThrottleTimeMs := (x.get "ThrottleTimeMs").toInt32,
    ErrorCode := (x.get "ErrorCode").toInt16 }

theorem EndTxnResponse.decodes {v : Int16} (hv : 0 ≤ v) (x : Val) (h : Protocol.EndTxnResponse.Valid false v x) (t0 : EndTxnResponse) :
    Reads (EndTxnResponse.decode v t0) (Protocol.EndTxnResponse.wire false v x) (EndTxnResponse.of v x t0) :=
  Reads.congr (((Step.field (set := fun (t : EndTxnResponse) x => { t with ThrottleTimeMs := x }) (read_int32 (Fields.Valid.head (h) hv)))
      |>.andThen (Step.field (set := fun (t : EndTxnResponse) x => { t with ErrorCode := x }) (read_int16 (Fields.Valid.head (Fields.Valid.tail h) hv))) : Step _ _ _) t0)
    (Writes.eq (fs := Protocol.EndTxnResponse) (v := v) (x := x) <| Writes.all hv rfl <| Writes.all hv rfl <| Writes.done).symm rfl

theorem EndTxnResponse.parses {v : Int16} (hv : 0 ≤ v) (t0 : EndTxnResponse) :
    Parses (EndTxnResponse.decode v t0) ((Ty.struct Protocol.EndTxnResponse).parse v) (fun x => EndTxnResponse.of v x t0) :=
  FParses.parses (fs := Protocol.EndTxnResponse)
    (FParses.field hv (set := fun (t : EndTxnResponse) x => { t with ThrottleTimeMs := x }) par_int32 <|
    FParses.field hv (set := fun (t : EndTxnResponse) x => { t with ErrorCode := x }) par_int16 <|
    FParses.done)
    (by simp only [EndTxnResponse.decode, Dec.andThen_nop]) (Fields.distinct_nodup _ (by decide +kernel)) (fun _ _ => rfl) t0

theorem EndTxnResponse.shown {v : Int16} (hv : 0 ≤ v) (x : Val) (h : Protocol.EndTxnResponse.Typed v x) :
    Protocol.EndTxnResponse.shows v x (EndTxnResponse.val (EndTxnResponse.of v x {})) = true :=
  Shows.all hv (show_int32 (Fields.Typed.head (h) hv)) <|
    Shows.all hv (show_int16 (Fields.Typed.head (Fields.Typed.tail h) hv)) <|
    rfl

end Kafka.Msg
