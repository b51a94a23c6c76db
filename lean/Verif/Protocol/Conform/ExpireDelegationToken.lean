import Verif.Protocol.ParseLemmas
import Verif.Gen.Spec.ExpireDelegationToken
/-!
Generated by tools/gen_protocol.py: the ExpireDelegationToken messages are written and read as the protocol says.
-/
namespace Kafka.Msg

open Protocol

/-- `ExpireDelegationTokenRequest` as a value of the protocol. -/
def ExpireDelegationTokenRequest.val (t : ExpireDelegationTokenRequest) : Val :=
  .struct [("Hmac", .bytes (some t.Hmac.elems)),
    ("ExpiryTimePeriodMs", .int64 t.ExpiryTimePeriodMs)]

theorem ExpireDelegationTokenRequest.conforms {v : Int16} (hv : 0 ≤ v) (t : ExpireDelegationTokenRequest) :
    Protocol.ExpireDelegationTokenRequest.wire false v (ExpireDelegationTokenRequest.val t) = ExpireDelegationTokenRequest.wire v t :=
  Writes.eq <|
    Writes.all hv (Protocol.wire_bytes v t.Hmac) <|
    Writes.all hv (Protocol.wire_int64 v t.ExpiryTimePeriodMs) <|
    Writes.done

/-- There is nothing that may not be nil. -/
def ExpireDelegationTokenRequest.Full (_v : Int16) (_t : ExpireDelegationTokenRequest) : Prop := True

theorem ExpireDelegationTokenRequest.valid {v : Int16} (_hv : 0 ≤ v) (t : ExpireDelegationTokenRequest) (h : t.Fits v) (_hf : t.Full v) :
    Protocol.ExpireDelegationTokenRequest.Valid true v (ExpireDelegationTokenRequest.val t) :=
  Valids.all (valid_bytes (h.Hmac)) <|
    Valids.all trivial <|
    trivial

/-- `ExpireDelegationTokenResponse` as a value of the protocol. -/
def ExpireDelegationTokenResponse.val (t : ExpireDelegationTokenResponse) : Val :=
  .struct [("ErrorCode", .int16 t.ErrorCode),
    ("ExpiryTimestampMs", .int64 t.ExpiryTimestampMs),
    ("ThrottleTimeMs", .int32 t.ThrottleTimeMs)]

theorem ExpireDelegationTokenResponse.conforms {v : Int16} (hv : 0 ≤ v) (t : ExpireDelegationTokenResponse) :
    Protocol.ExpireDelegationTokenResponse.wire false v (ExpireDelegationTokenResponse.val t) = ExpireDelegationTokenResponse.wire v t :=
  Writes.eq <|
    Writes.all hv (Protocol.wire_int16 v t.ErrorCode) <|
    Writes.all hv (Protocol.wire_int64 v t.ExpiryTimestampMs) <|
    Writes.all hv (Protocol.wire_int32 v t.ThrottleTimeMs) <|
    Writes.done

/-- There is nothing that may not be nil. -/
def ExpireDelegationTokenResponse.Full (_v : Int16) (_t : ExpireDelegationTokenResponse) : Prop := True

theorem ExpireDelegationTokenResponse.valid {v : Int16} (_hv : 0 ≤ v) (t : ExpireDelegationTokenResponse) (_h : t.Fits v) (_hf : t.Full v) :
    Protocol.ExpireDelegationTokenResponse.Valid true v (ExpireDelegationTokenResponse.val t) :=
  Valids.all trivial <|
    Valids.all trivial <|
    Valids.all trivial <|
    trivial

/-- What `ExpireDelegationTokenResponse` holds after reading the value `x` into `t0`. -/
def ExpireDelegationTokenResponse.of (_v : Int16) (x : Val) (_t0 : ExpireDelegationTokenResponse) : ExpireDelegationTokenResponse :=
  { ErrorCode := (x.get "ErrorCode").toInt16,
    ExpiryTimestampMs := (x.get "ExpiryTimestampMs").toInt64,
    ThrottleTimeMs := (x.get "ThrottleTimeMs").toInt32 }

theorem ExpireDelegationTokenResponse.decodes {v : Int16} (hv : 0 ≤ v) (x : Val) (h : Protocol.ExpireDelegationTokenResponse.Valid false v x) (t0 : ExpireDelegationTokenResponse) :
    Reads (ExpireDelegationTokenResponse.decode v t0) (Protocol.ExpireDelegationTokenResponse.wire false v x) (ExpireDelegationTokenResponse.of v x t0) :=
  Reads.congr (((Step.field (set := fun (t : ExpireDelegationTokenResponse) x => { t with ErrorCode := x }) (read_int16 (Fields.Valid.head (h) hv)))
      |>.andThen (Step.field (set := fun (t : ExpireDelegationTokenResponse) x => { t with ExpiryTimestampMs := x }) (read_int64 (Fields.Valid.head (Fields.Valid.tail h) hv)))
      |>.andThen (Step.field (set := fun (t : ExpireDelegationTokenResponse) x => { t with ThrottleTimeMs := x }) (read_int32 (Fields.Valid.head (Fields.Valid.tail (Fields.Valid.tail h)) hv))) : Step _ _ _) t0)
    (Writes.eq (fs := Protocol.ExpireDelegationTokenResponse) (v := v) (x := x) <| Writes.all hv rfl <| Writes.all hv rfl <| Writes.all hv rfl <| Writes.done).symm rfl

theorem ExpireDelegationTokenResponse.parses {v : Int16} (hv : 0 ≤ v) (t0 : ExpireDelegationTokenResponse) :
    Parses (ExpireDelegationTokenResponse.decode v t0) ((Ty.struct Protocol.ExpireDelegationTokenResponse).parse v) (fun x => ExpireDelegationTokenResponse.of v x t0) :=
  FParses.parses (fs := Protocol.ExpireDelegationTokenResponse)
    (FParses.field hv (set := fun (t : ExpireDelegationTokenResponse) x => { t with ErrorCode := x }) par_int16 <|
    FParses.field hv (set := fun (t : ExpireDelegationTokenResponse) x => { t with ExpiryTimestampMs := x }) par_int64 <|
    FParses.field hv (set := fun (t : ExpireDelegationTokenResponse) x => { t with ThrottleTimeMs := x }) par_int32 <|
    FParses.done)
    (by simp only [ExpireDelegationTokenResponse.decode, Dec.andThen_assoc, Dec.andThen_nop]) (Fields.distinct_nodup _ (by decide +kernel)) (fun _ _ => rfl) t0

theorem ExpireDelegationTokenResponse.shown {v : Int16} (hv : 0 ≤ v) (x : Val) (h : Protocol.ExpireDelegationTokenResponse.Typed v x) :
    Protocol.ExpireDelegationTokenResponse.shows v x (ExpireDelegationTokenResponse.val (ExpireDelegationTokenResponse.of v x {})) = true :=
  Shows.all hv (show_int16 (Fields.Typed.head (h) hv)) <|
    Shows.all hv (show_int64 (Fields.Typed.head (Fields.Typed.tail h) hv)) <|
    Shows.all hv (show_int32 (Fields.Typed.head (Fields.Typed.tail (Fields.Typed.tail h)) hv)) <|
    rfl

end Kafka.Msg
