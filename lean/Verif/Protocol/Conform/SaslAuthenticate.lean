import Verif.Protocol.ParseLemmas
import Verif.Gen.Spec.SaslAuthenticate
/-!
Generated by tools/gen_protocol.py: the SaslAuthenticate messages are written and read as the protocol says.
-/
namespace Kafka.Msg

open Protocol

/-- `SaslAuthenticateRequest` as a value of the protocol. -/
def SaslAuthenticateRequest.val (t : SaslAuthenticateRequest) : Val :=
  .struct [("AuthBytes", .bytes (some t.AuthBytes.elems))]

theorem SaslAuthenticateRequest.conforms {v : Int16} (hv : 0 ≤ v) (t : SaslAuthenticateRequest) :
    Protocol.SaslAuthenticateRequest.wire false v (SaslAuthenticateRequest.val t) = SaslAuthenticateRequest.wire v t :=
  Writes.eq <|
    Writes.all hv (Protocol.wire_bytes v t.AuthBytes) <|
    Writes.done

/-- There is nothing that may not be nil. -/
def SaslAuthenticateRequest.Full (_v : Int16) (_t : SaslAuthenticateRequest) : Prop := True

theorem SaslAuthenticateRequest.valid {v : Int16} (_hv : 0 ≤ v) (t : SaslAuthenticateRequest) (h : t.Fits v) (_hf : t.Full v) :
    Protocol.SaslAuthenticateRequest.Valid true v (SaslAuthenticateRequest.val t) :=
  Valids.all (valid_bytes (h.AuthBytes)) <|
    trivial

/-- `SaslAuthenticateResponse` as a value of the protocol. -/
def SaslAuthenticateResponse.val (t : SaslAuthenticateResponse) : Val :=
  .struct [("ErrorCode", .int16 t.ErrorCode),
    ("ErrorMessage", .str (some t.ErrorMessage)),
    ("AuthBytes", .bytes (some t.AuthBytes.elems)),
    ("SessionLifetimeMs", .int64 t.SessionLifetimeMs)]

theorem SaslAuthenticateResponse.conforms {v : Int16} (hv : 0 ≤ v) (t : SaslAuthenticateResponse) :
    Protocol.SaslAuthenticateResponse.wire false v (SaslAuthenticateResponse.val t) = SaslAuthenticateResponse.wire v t :=
  Writes.eq <|
    Writes.all hv (Protocol.wire_int16 v t.ErrorCode) <|
    Writes.all hv (Protocol.wire_string v t.ErrorMessage) <|
    Writes.all hv (Protocol.wire_bytes v t.AuthBytes) <|
    Writes.since (Protocol.wire_int64 v t.SessionLifetimeMs) <|
    Writes.done

/-- There is nothing that may not be nil. -/
def SaslAuthenticateResponse.Full (_v : Int16) (_t : SaslAuthenticateResponse) : Prop := True

theorem SaslAuthenticateResponse.valid {v : Int16} (_hv : 0 ≤ v) (t : SaslAuthenticateResponse) (h : t.Fits v) (_hf : t.Full v) :
    Protocol.SaslAuthenticateResponse.Valid true v (SaslAuthenticateResponse.val t) :=
  Valids.all trivial <|
    Valids.all (valid_string (h.ErrorMessage)) <|
    Valids.all (valid_bytes (h.AuthBytes)) <|
    Valids.since (fun _ => trivial) <|
    trivial

/-- What `SaslAuthenticateResponse` holds after reading the value `x` into `t0`. -/
def SaslAuthenticateResponse.of (v : Int16) (x : Val) (t0 : SaslAuthenticateResponse) : SaslAuthenticateResponse :=
  { ErrorCode := (x.get "ErrorCode").toInt16,
    ErrorMessage := (x.get "ErrorMessage").toStr,
    AuthBytes := (x.get "AuthBytes").toBytes,
    SessionLifetimeMs := if v ≥ 1 then (x.get "SessionLifetimeMs").toInt64 else t0.SessionLifetimeMs }

theorem SaslAuthenticateResponse.decodes {v : Int16} (hv : 0 ≤ v) (x : Val) (h : Protocol.SaslAuthenticateResponse.Valid false v x) (t0 : SaslAuthenticateResponse) :
    Reads (SaslAuthenticateResponse.decode v t0) (Protocol.SaslAuthenticateResponse.wire false v x) (SaslAuthenticateResponse.of v x t0) :=
  Reads.congr (((Step.field (set := fun (t : SaslAuthenticateResponse) x => { t with ErrorCode := x }) (read_int16 (Fields.Valid.head (h) hv)))
      |>.andThen (Step.field (set := fun (t : SaslAuthenticateResponse) x => { t with ErrorMessage := x }) (read_string (Fields.Valid.head (Fields.Valid.tail h) hv)))
      |>.andThen (Step.field (set := fun (t : SaslAuthenticateResponse) x => { t with AuthBytes := x }) (read_bytes (Fields.Valid.head (Fields.Valid.tail (Fields.Valid.tail h)) hv)))
      |>.andThen (Step.optField (c := v ≥ 1) (set := fun (t : SaslAuthenticateResponse) x => { t with SessionLifetimeMs := x }) (·.SessionLifetimeMs) (fun _ => rfl) fun hc => read_int64 (Fields.Valid.head (Fields.Valid.tail (Fields.Valid.tail (Fields.Valid.tail h))) hc)) : Step _ _ _) t0)
    (Writes.eq (fs := Protocol.SaslAuthenticateResponse) (v := v) (x := x) <| Writes.all hv rfl <| Writes.all hv rfl <| Writes.all hv rfl <| Writes.since rfl <| Writes.done).symm rfl

theorem SaslAuthenticateResponse.parses {v : Int16} (hv : 0 ≤ v) (t0 : SaslAuthenticateResponse) :
    Parses (SaslAuthenticateResponse.decode v t0) ((Ty.struct Protocol.SaslAuthenticateResponse).parse v) (fun x => SaslAuthenticateResponse.of v x t0) :=
  FParses.parses (fs := Protocol.SaslAuthenticateResponse)
    (FParses.field hv (set := fun (t : SaslAuthenticateResponse) x => { t with ErrorCode := x }) par_int16 <|
    FParses.field hv (set := fun (t : SaslAuthenticateResponse) x => { t with ErrorMessage := x }) par_string <|
    FParses.field hv (set := fun (t : SaslAuthenticateResponse) x => { t with AuthBytes := x }) par_bytes <|
    FParses.optField (c := v ≥ 1) Iff.rfl (set := fun (t : SaslAuthenticateResponse) x => { t with SessionLifetimeMs := x }) (·.SessionLifetimeMs) (fun _ => rfl) par_int64 <|
    FParses.done)
    (by simp only [SaslAuthenticateResponse.decode, Dec.andThen_assoc, Dec.andThen_nop]) (Fields.distinct_nodup _ (by decide +kernel)) (fun _ _ => rfl) t0

theorem SaslAuthenticateResponse.shown {v : Int16} (hv : 0 ≤ v) (x : Val) (h : Protocol.SaslAuthenticateResponse.Typed v x) :
    Protocol.SaslAuthenticateResponse.shows v x (SaslAuthenticateResponse.val (SaslAuthenticateResponse.of v x {})) = true :=
  Shows.all hv (show_int16 (Fields.Typed.head (h) hv)) <|
    Shows.all hv (show_string (Fields.Typed.head (Fields.Typed.tail h) hv)) <|
    Shows.all hv (show_bytes (Fields.Typed.head (Fields.Typed.tail (Fields.Typed.tail h)) hv)) <|
    Shows.since (.int64) rfl (fun hc => show_int64 (Fields.Typed.head (Fields.Typed.tail (Fields.Typed.tail (Fields.Typed.tail h))) hc)) rfl <|
    rfl

end Kafka.Msg
