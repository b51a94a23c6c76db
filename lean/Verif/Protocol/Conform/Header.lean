import Verif.Protocol.ParseLemmas
import Verif.Gen.Spec.Header
/-!
Generated by tools/gen_protocol.py: the Header messages are written and read as the protocol says.
-/
namespace Kafka.Msg

open Protocol

/-- `RequestHeader` as a value of the protocol. -/
def RequestHeader.val (t : RequestHeader) : Val :=
  .struct [("RequestApiKey", .int16 t.RequestApiKey),
    ("RequestApiVersion", .int16 t.RequestApiVersion),
    ("CorrelationId", .int32 t.CorrelationId),
    ("ClientId", .str (some t.ClientId))]

theorem RequestHeader.conforms {v : Int16} (hv : 0 ≤ v) (t : RequestHeader) :
    Protocol.RequestHeader.wire false v (RequestHeader.val t) = RequestHeader.wire v t :=
  Writes.eq <|
    Writes.all hv (Protocol.wire_int16 v t.RequestApiKey) <|
    Writes.all hv (Protocol.wire_int16 v t.RequestApiVersion) <|
    Writes.all hv (Protocol.wire_int32 v t.CorrelationId) <|
    Writes.since (Protocol.wire_string v t.ClientId) <|
    Writes.done

/-- There is nothing that may not be nil. -/
def RequestHeader.Full (_v : Int16) (_t : RequestHeader) : Prop := True

theorem RequestHeader.valid {v : Int16} (_hv : 0 ≤ v) (t : RequestHeader) (h : t.Fits v) (_hf : t.Full v) :
    Protocol.RequestHeader.Valid true v (RequestHeader.val t) :=
  Valids.all trivial <|
    Valids.all trivial <|
    Valids.all trivial <|
    Valids.since (fun hc => valid_string (h.ClientId hc)) <|
    trivial

/-- What `RequestHeader` holds after reading the value `x` into `t0`. -/
def RequestHeader.of (v : Int16) (x : Val) (t0 : RequestHeader) : RequestHeader :=
  { RequestApiKey := (x.get "RequestApiKey").toInt16,
    RequestApiVersion := (x.get "RequestApiVersion").toInt16,
    CorrelationId := (x.get "CorrelationId").toInt32,
    ClientId := if v ≥ 1 then (x.get "ClientId").toStr else t0.ClientId }

theorem RequestHeader.decodes {v : Int16} (hv : 0 ≤ v) (x : Val) (h : Protocol.RequestHeader.Valid false v x) (t0 : RequestHeader) :
    Reads (RequestHeader.decode v t0) (Protocol.RequestHeader.wire false v x) (RequestHeader.of v x t0) :=
  Reads.congr (((Step.field (set := fun (t : RequestHeader) x => { t with RequestApiKey := x }) (read_int16 (Fields.Valid.head (h) hv)))
      |>.andThen (Step.field (set := fun (t : RequestHeader) x => { t with RequestApiVersion := x }) (read_int16 (Fields.Valid.head (Fields.Valid.tail h) hv)))
      |>.andThen (Step.field (set := fun (t : RequestHeader) x => { t with CorrelationId := x }) (read_int32 (Fields.Valid.head (Fields.Valid.tail (Fields.Valid.tail h)) hv)))
      |>.andThen (Step.optField (c := v ≥ 1) (set := fun (t : RequestHeader) x => { t with ClientId := x }) (·.ClientId) (fun _ => rfl) fun hc => read_string (Fields.Valid.head (Fields.Valid.tail (Fields.Valid.tail (Fields.Valid.tail h))) hc)) : Step _ _ _) t0)
    (Writes.eq (fs := Protocol.RequestHeader) (v := v) (x := x) <| Writes.all hv rfl <| Writes.all hv rfl <| Writes.all hv rfl <| Writes.since rfl <| Writes.done).symm rfl

theorem RequestHeader.parses {v : Int16} (hv : 0 ≤ v) (t0 : RequestHeader) :
    Parses (RequestHeader.decode v t0) ((Ty.struct Protocol.RequestHeader).parse v) (fun x => RequestHeader.of v x t0) :=
  FParses.parses (fs := Protocol.RequestHeader)
    (FParses.field hv (set := fun (t : RequestHeader) x => { t with RequestApiKey := x }) par_int16 <|
    FParses.field hv (set := fun (t : RequestHeader) x => { t with RequestApiVersion := x }) par_int16 <|
    FParses.field hv (set := fun (t : RequestHeader) x => { t with CorrelationId := x }) par_int32 <|
    FParses.optField (c := v ≥ 1) Iff.rfl (set := fun (t : RequestHeader) x => { t with ClientId := x }) (·.ClientId) (fun _ => rfl) par_string <|
    FParses.done)
    (by simp only [RequestHeader.decode, Dec.andThen_assoc, Dec.andThen_nop]) (Fields.distinct_nodup _ (by decide +kernel)) (fun _ _ => rfl) t0

theorem RequestHeader.shown {v : Int16} (hv : 0 ≤ v) (x : Val) (h : Protocol.RequestHeader.Typed v x) :
    Protocol.RequestHeader.shows v x (RequestHeader.val (RequestHeader.of v x {})) = true :=
  Shows.all hv (show_int16 (Fields.Typed.head (h) hv)) <|
    Shows.all hv (show_int16 (Fields.Typed.head (Fields.Typed.tail h) hv)) <|
    Shows.all hv (show_int32 (Fields.Typed.head (Fields.Typed.tail (Fields.Typed.tail h)) hv)) <|
    Shows.since (fun s => .str (some s)) rfl (fun hc => show_string (Fields.Typed.head (Fields.Typed.tail (Fields.Typed.tail (Fields.Typed.tail h))) hc)) rfl <|
    rfl

/-- `ResponseHeader` as a value of the protocol. -/
def ResponseHeader.val (t : ResponseHeader) : Val :=
  .struct [("CorrelationId", .int32 t.CorrelationId)]

theorem ResponseHeader.conforms {v : Int16} (hv : 0 ≤ v) (t : ResponseHeader) :
    Protocol.ResponseHeader.wire false v (ResponseHeader.val t) = ResponseHeader.wire v t :=
  Writes.eq <|
    Writes.all hv (Protocol.wire_int32 v t.CorrelationId) <|
    Writes.done

/-- There is nothing that may not be nil. -/
def ResponseHeader.Full (_v : Int16) (_t : ResponseHeader) : Prop := True

theorem ResponseHeader.valid {v : Int16} (_hv : 0 ≤ v) (t : ResponseHeader) (_h : t.Fits v) (_hf : t.Full v) :
    Protocol.ResponseHeader.Valid true v (ResponseHeader.val t) :=
  Valids.all trivial <|
    trivial

/-- What `ResponseHeader` holds after reading the value `x` into `t0`. -/
def ResponseHeader.of (_v : Int16) (x : Val) (_t0 : ResponseHeader) : ResponseHeader :=
  { CorrelationId := (x.get "CorrelationId").toInt32 }

theorem ResponseHeader.decodes {v : Int16} (hv : 0 ≤ v) (x : Val) (h : Protocol.ResponseHeader.Valid false v x) (t0 : ResponseHeader) :
    Reads (ResponseHeader.decode v t0) (Protocol.ResponseHeader.wire false v x) (ResponseHeader.of v x t0) :=
  Reads.congr (((Step.field (set := fun (t : ResponseHeader) x => { t with CorrelationId := x }) (read_int32 (Fields.Valid.head (h) hv))) : Step _ _ _) t0)
    (Writes.eq (fs := Protocol.ResponseHeader) (v := v) (x := x) <| Writes.all hv rfl <| Writes.done).symm rfl

theorem ResponseHeader.parses {v : Int16} (hv : 0 ≤ v) (t0 : ResponseHeader) :
    Parses (ResponseHeader.decode v t0) ((Ty.struct Protocol.ResponseHeader).parse v) (fun x => ResponseHeader.of v x t0) :=
  FParses.parses (fs := Protocol.ResponseHeader)
    (FParses.field hv (set := fun (t : ResponseHeader) x => { t with CorrelationId := x }) par_int32 <|
    FParses.done)
    (by simp only [ResponseHeader.decode, Dec.andThen_nop]) (Fields.distinct_nodup _ (by decide +kernel)) (fun _ _ => rfl) t0

theorem ResponseHeader.shown {v : Int16} (hv : 0 ≤ v) (x : Val) (h : Protocol.ResponseHeader.Typed v x) :
    Protocol.ResponseHeader.shows v x (ResponseHeader.val (ResponseHeader.of v x {})) = true :=
  Shows.all hv (show_int32 (Fields.Typed.head (h) hv)) <|
    rfl

end Kafka.Msg
