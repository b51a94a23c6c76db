import Verif.Protocol.ParseLemmas
import Verif.Gen.Spec.AddOffsetsToTxn
/-!
Generated by tools/gen_protocol.py: the AddOffsetsToTxn messages are written and read as the protocol says.
-/
namespace Kafka.Msg

open Protocol

/-- `AddOffsetsToTxnRequest` as a value of the protocol. -/
def AddOffsetsToTxnRequest.val (t : AddOffsetsToTxnRequest) : Val :=
  .struct [("TransactionalId", .str (some t.TransactionalId)),
    ("ProducerId", .int64 t.ProducerId),
    ("ProducerEpoch", .int16 t.ProducerEpoch),
    ("GroupId", .str (some t.GroupId))]

theorem AddOffsetsToTxnRequest.conforms {v : Int16} (hv : 0 ≤ v) (t : AddOffsetsToTxnRequest) :
    Protocol.AddOffsetsToTxnRequest.wire false v (AddOffsetsToTxnRequest.val t) = AddOffsetsToTxnRequest.wire v t :=
  Writes.eq <|
    Writes.all hv (Protocol.wire_string v t.TransactionalId) <|
    Writes.all hv (Protocol.wire_int64 v t.ProducerId) <|
    Writes.all hv (Protocol.wire_int16 v t.ProducerEpoch) <|
    Writes.all hv (Protocol.wire_string v t.GroupId) <|
    Writes.done

/-- There is nothing that may not be nil. -/
def AddOffsetsToTxnRequest.Full (_v : Int16) (_t : AddOffsetsToTxnRequest) : Prop := True

theorem AddOffsetsToTxnRequest.valid {v : Int16} (_hv : 0 ≤ v) (t : AddOffsetsToTxnRequest) (h : t.Fits v) (_hf : t.Full v) :
    Protocol.AddOffsetsToTxnRequest.Valid true v (AddOffsetsToTxnRequest.val t) :=
  Valids.all (valid_string (h.TransactionalId)) <|
    Valids.all trivial <|
    Valids.all trivial <|
    Valids.all (valid_string (h.GroupId)) <|
    trivial

/-- `AddOffsetsToTxnResponse` as a value of the protocol. -/
def AddOffsetsToTxnResponse.val (t : AddOffsetsToTxnResponse) : Val :=
  .struct [("ThrottleTimeMs", .int32 t.ThrottleTimeMs),
    ("ErrorCode", .int16 t.ErrorCode)]

theorem AddOffsetsToTxnResponse.conforms {v : Int16} (hv : 0 ≤ v) (t : AddOffsetsToTxnResponse) :
    Protocol.AddOffsetsToTxnResponse.wire false v (AddOffsetsToTxnResponse.val t) = AddOffsetsToTxnResponse.wire v t :=
  Writes.eq <|
    Writes.all hv (Protocol.wire_int32 v t.ThrottleTimeMs) <|
    Writes.all hv (Protocol.wire_int16 v t.ErrorCode) <|
    Writes.done

/-- There is nothing that may not be nil. -/
def AddOffsetsToTxnResponse.Full (_v : Int16) (_t : AddOffsetsToTxnResponse) : Prop := True

theorem AddOffsetsToTxnResponse.valid {v : Int16} (_hv : 0 ≤ v) (t : AddOffsetsToTxnResponse) (_h : t.Fits v) (_hf : t.Full v) :
    Protocol.AddOffsetsToTxnResponse.Valid true v (AddOffsetsToTxnResponse.val t) :=
  Valids.all trivial <|
    Valids.all trivial <|
    trivial

/-- What `AddOffsetsToTxnResponse` holds after reading the value `x` into `t0`. -/
def AddOffsetsToTxnResponse.of (_v : Int16) (x : Val) (_t0 : AddOffsetsToTxnResponse) : AddOffsetsToTxnResponse :=
  { ThrottleTimeMs := (x.get "ThrottleTimeMs").toInt32,
    ErrorCode := (x.get "ErrorCode").toInt16 }

theorem AddOffsetsToTxnResponse.decodes {v : Int16} (hv : 0 ≤ v) (x : Val) (h : Protocol.AddOffsetsToTxnResponse.Valid false v x) (t0 : AddOffsetsToTxnResponse) :
    Reads (AddOffsetsToTxnResponse.decode v t0) (Protocol.AddOffsetsToTxnResponse.wire false v x) (AddOffsetsToTxnResponse.of v x t0) :=
  Reads.congr (((Step.field (set := fun (t : AddOffsetsToTxnResponse) x => { t with ThrottleTimeMs := x }) (read_int32 (Fields.Valid.head (h) hv)))
      |>.andThen (Step.field (set := fun (t : AddOffsetsToTxnResponse) x => { t with ErrorCode := x }) (read_int16 (Fields.Valid.head (Fields.Valid.tail h) hv))) : Step _ _ _) t0)
    (Writes.eq (fs := Protocol.AddOffsetsToTxnResponse) (v := v) (x := x) <| Writes.all hv rfl <| Writes.all hv rfl <| Writes.done).symm rfl

theorem AddOffsetsToTxnResponse.parses {v : Int16} (hv : 0 ≤ v) (t0 : AddOffsetsToTxnResponse) :
    Parses (AddOffsetsToTxnResponse.decode v t0) ((Ty.struct Protocol.AddOffsetsToTxnResponse).parse v) (fun x => AddOffsetsToTxnResponse.of v x t0) :=
  FParses.parses (fs := Protocol.AddOffsetsToTxnResponse)
    (FParses.field hv (set := fun (t : AddOffsetsToTxnResponse) x => { t with ThrottleTimeMs := x }) par_int32 <|
    FParses.field hv (set := fun (t : AddOffsetsToTxnResponse) x => { t with ErrorCode := x }) par_int16 <|
    FParses.done)
    (by simp only [AddOffsetsToTxnResponse.decode, Dec.andThen_nop]) (Fields.distinct_nodup _ (by decide +kernel)) (fun _ _ => rfl) t0

theorem AddOffsetsToTxnResponse.shown {v : Int16} (hv : 0 ≤ v) (x : Val) (h : Protocol.AddOffsetsToTxnResponse.Typed v x) :
    Protocol.AddOffsetsToTxnResponse.shows v x (AddOffsetsToTxnResponse.val (AddOffsetsToTxnResponse.of v x {})) = true :=
  Shows.all hv (show_int32 (Fields.Typed.head (h) hv)) <|
    Shows.all hv (show_int16 (Fields.Typed.head (Fields.Typed.tail h) hv)) <|
    rfl

end Kafka.Msg
