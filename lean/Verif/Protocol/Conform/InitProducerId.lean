import Verif.Protocol.ParseLemmas
import Verif.Gen.Spec.InitProducerId
/-!
Generated by tools/gen_protocol.py: the InitProducerId messages are written and read as the protocol says.
-/
namespace Kafka.Msg

open Protocol

/-- `InitProducerIdRequest` as a value of the protocol. -/
def InitProducerIdRequest.val (t : InitProducerIdRequest) : Val :=
  .struct [("TransactionalId", .str (some t.TransactionalId)),
    ("TransactionTimeoutMs", .int32 t.TransactionTimeoutMs)]

theorem InitProducerIdRequest.conforms {v : Int16} (hv : 0 ≤ v) (t : InitProducerIdRequest) :
    Protocol.InitProducerIdRequest.wire false v (InitProducerIdRequest.val t) = InitProducerIdRequest.wire v t :=
  Writes.eq <|
    Writes.all hv (Protocol.wire_string v t.TransactionalId) <|
    Writes.all hv (Protocol.wire_int32 v t.TransactionTimeoutMs) <|
    Writes.done

/-- There is nothing that may not be nil. -/
def InitProducerIdRequest.Full (_v : Int16) (_t : InitProducerIdRequest) : Prop := True

theorem InitProducerIdRequest.valid {v : Int16} (_hv : 0 ≤ v) (t : InitProducerIdRequest) (h : t.Fits v) (_hf : t.Full v) :
    Protocol.InitProducerIdRequest.Valid true v (InitProducerIdRequest.val t) :=
  Valids.all (valid_string (h.TransactionalId)) <|
    Valids.all trivial <|
    trivial

/-- `InitProducerIdResponse` as a value of the protocol. -/
def InitProducerIdResponse.val (t : InitProducerIdResponse) : Val :=
  .struct [("ThrottleTimeMs", .int32 t.ThrottleTimeMs),
    ("ErrorCode", .int16 t.ErrorCode),
    ("ProducerId", .int64 t.ProducerId),
    ("ProducerEpoch", .int16 t.ProducerEpoch)]

theorem InitProducerIdResponse.conforms {v : Int16} (hv : 0 ≤ v) (t : InitProducerIdResponse) :
    Protocol.InitProducerIdResponse.wire false v (InitProducerIdResponse.val t) = InitProducerIdResponse.wire v t :=
  Writes.eq <|
    Writes.all hv (Protocol.wire_int32 v t.ThrottleTimeMs) <|
    Writes.all hv (Protocol.wire_int16 v t.ErrorCode) <|
    Writes.all hv (Protocol.wire_int64 v t.ProducerId) <|
    Writes.all hv (Protocol.wire_int16 v t.ProducerEpoch) <|
    Writes.done

/-- There is nothing that may not be nil. -/
def InitProducerIdResponse.Full (_v : Int16) (_t : InitProducerIdResponse) : Prop := True

theorem InitProducerIdResponse.valid {v : Int16} (_hv : 0 ≤ v) (t : InitProducerIdResponse) (_h : t.Fits v) (_hf : t.Full v) :
    Protocol.InitProducerIdResponse.Valid true v (InitProducerIdResponse.val t) :=
  Valids.all trivial <|
    Valids.all trivial <|
    Valids.all trivial <|
    Valids.all trivial <|
    trivial

/-- What `InitProducerIdResponse` holds after reading the value `x` into `t0`. -/
def InitProducerIdResponse.of (_v : Int16) (x : Val) (_t0 : InitProducerIdResponse) : InitProducerIdResponse :=
  { ThrottleTimeMs := (x.get "ThrottleTimeMs").toInt32,
    ErrorCode := (x.get "ErrorCode").toInt16,
    ProducerId := (x.get "ProducerId").toInt64,
    ProducerEpoch := (x.get "ProducerEpoch").toInt16 }

theorem InitProducerIdResponse.decodes {v : Int16} (hv : 0 ≤ v) (x : Val) (h : Protocol.InitProducerIdResponse.Valid false v x) (t0 : InitProducerIdResponse) :
    Reads (InitProducerIdResponse.decode v t0) (Protocol.InitProducerIdResponse.wire false v x) (InitProducerIdResponse.of v x t0) :=
  Reads.congr (((Step.field (set := fun (t : InitProducerIdResponse) x => { t with ThrottleTimeMs := x }) (read_int32 (Fields.Valid.head (h) hv)))
      |>.andThen (Step.field (set := fun (t : InitProducerIdResponse) x => { t with ErrorCode := x }) (read_int16 (Fields.Valid.head (Fields.Valid.tail h) hv)))
      |>.andThen (Step.field (set := fun (t : InitProducerIdResponse) x => { t with ProducerId := x }) (read_int64 (Fields.Valid.head (Fields.Valid.tail (Fields.Valid.tail h)) hv)))
      |>.andThen (Step.field (set := fun (t : InitProducerIdResponse) x => { t with ProducerEpoch := x }) (read_int16 (Fields.Valid.head (Fields.Valid.tail (Fields.Valid.tail (Fields.Valid.tail h))) hv))) : Step _ _ _) t0)
    (Writes.eq (fs := Protocol.InitProducerIdResponse) (v := v) (x := x) <| Writes.all hv rfl <| Writes.all hv rfl <| Writes.all hv rfl <| Writes.all hv rfl <| Writes.done).symm rfl

theorem InitProducerIdResponse.parses {v : Int16} (hv : 0 ≤ v) (t0 : InitProducerIdResponse) :
    Parses (InitProducerIdResponse.decode v t0) ((Ty.struct Protocol.InitProducerIdResponse).parse v) (fun x => InitProducerIdResponse.of v x t0) :=
  FParses.parses (fs := Protocol.InitProducerIdResponse)
    (FParses.field hv (set := fun (t : InitProducerIdResponse) x => { t with ThrottleTimeMs := x }) par_int32 <|
    FParses.field hv (set := fun (t : InitProducerIdResponse) x => { t with ErrorCode := x }) par_int16 <|
    FParses.field hv (set := fun (t : InitProducerIdResponse) x => { t with ProducerId := x }) par_int64 <|
    FParses.field hv (set := fun (t : InitProducerIdResponse) x => { t with ProducerEpoch := x }) par_int16 <|
    FParses.done)
    (by simp only [InitProducerIdResponse.decode, Dec.andThen_assoc, Dec.andThen_nop]) (Fields.distinct_nodup _ (by decide +kernel)) (fun _ _ => rfl) t0

theorem InitProducerIdResponse.shown {v : Int16} (hv : 0 ≤ v) (x : Val) (h : Protocol.InitProducerIdResponse.Typed v x) :
    Protocol.InitProducerIdResponse.shows v x (InitProducerIdResponse.val (InitProducerIdResponse.of v x {})) = true :=
  Shows.all hv (show_int32 (Fields.Typed.head (h) hv)) <|
    Shows.all hv (show_int16 (Fields.Typed.head (Fields.Typed.tail h) hv)) <|
    Shows.all hv (show_int64 (Fields.Typed.head (Fields.Typed.tail (Fields.Typed.tail h)) hv)) <|
    Shows.all hv (show_int16 (Fields.Typed.head (Fields.Typed.tail (Fields.Typed.tail (Fields.Typed.tail h))) hv)) <|
    rfl

end Kafka.Msg
