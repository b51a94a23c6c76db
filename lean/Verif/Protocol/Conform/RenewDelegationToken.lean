import Verif.Protocol.ParseLemmas
import Verif.Gen.Spec.RenewDelegationToken
/-!
Generated by tools/gen_protocol.py: the RenewDelegationToken messages are written and read as the protocol says.
-/
namespace Kafka.Msg

open Protocol

/-- `RenewDelegationTokenRequest` as a value of the protocol. -/
def RenewDelegationTokenRequest.val (t : RenewDelegationTokenRequest) : Val :=
  .struct [("Hmac", .bytes (some t.Hmac.elems)),
    ("RenewPeriodMs", .int64 t.RenewPeriodMs)]

theorem RenewDelegationTokenRequest.conforms {v : Int16} (hv : 0 ≤ v) (t : RenewDelegationTokenRequest) :
    Protocol.RenewDelegationTokenRequest.wire false v (RenewDelegationTokenRequest.val t) = RenewDelegationTokenRequest.wire v t :=
  Writes.eq <|
    Writes.all hv (Protocol.wire_bytes v t.Hmac) <|
    Writes.all hv (Protocol.wire_int64 v t.RenewPeriodMs) <|
    Writes.done

/-- There is nothing that may not be nil. -/
def RenewDelegationTokenRequest.Full (_v : Int16) (_t : RenewDelegationTokenRequest) : Prop := True

theorem RenewDelegationTokenRequest.valid {v : Int16} (_hv : 0 ≤ v) (t : RenewDelegationTokenRequest) (h : t.Fits v) (_hf : t.Full v) :
    Protocol.RenewDelegationTokenRequest.Valid true v (RenewDelegationTokenRequest.val t) :=
  Valids.all (valid_bytes (h.Hmac)) <|
    Valids.all trivial <|
    trivial

/-- `RenewDelegationTokenResponse` as a value of the protocol. -/
def RenewDelegationTokenResponse.val (t : RenewDelegationTokenResponse) : Val :=
  .struct [("ErrorCode", .int16 t.ErrorCode),
    ("ExpiryTimestampMs", .int64 t.ExpiryTimestampMs),
    ("ThrottleTimeMs", .int32 t.ThrottleTimeMs)]

theorem RenewDelegationTokenResponse.conforms {v : Int16} (hv : 0 ≤ v) (t : RenewDelegationTokenResponse) :
    Protocol.RenewDelegationTokenResponse.wire false v (RenewDelegationTokenResponse.val t) = RenewDelegationTokenResponse.wire v t :=
  Writes.eq <|
    Writes.all hv (Protocol.wire_int16 v t.ErrorCode) <|
    Writes.all hv (Protocol.wire_int64 v t.ExpiryTimestampMs) <|
    Writes.all hv (Protocol.wire_int32 v t.ThrottleTimeMs) <|
    Writes.done

/-- There is nothing that may not be nil. -/
def RenewDelegationTokenResponse.Full (_v : Int16) (_t : RenewDelegationTokenResponse) : Prop := True

theorem RenewDelegationTokenResponse.valid {v : Int16} (_hv : 0 ≤ v) (t : RenewDelegationTokenResponse) (_h : t.Fits v) (_hf : t.Full v) :
    Protocol.RenewDelegationTokenResponse.Valid true v (RenewDelegationTokenResponse.val t) :=
  Valids.all trivial <|
    Valids.all trivial <|
    Valids.all trivial <|
    trivial

/-- What `RenewDelegationTokenResponse` holds after reading the value `x` into `t0`. -/
def RenewDelegationTokenResponse.of (_v : Int16) (x : Val) (_t0 : RenewDelegationTokenResponse) : RenewDelegationTokenResponse :=
  { ErrorCode := (x.get "ErrorCode").toInt16,
    ExpiryTimestampMs := (x.get "ExpiryTimestampMs").toInt64,
    ThrottleTimeMs := (x.get "ThrottleTimeMs").toInt32 }

theorem RenewDelegationTokenResponse.decodes {v : Int16} (hv : 0 ≤ v) (x : Val) (h : Protocol.RenewDelegationTokenResponse.Valid false v x) (t0 : RenewDelegationTokenResponse) :
    Reads (RenewDelegationTokenResponse.decode v t0) (Protocol.RenewDelegationTokenResponse.wire false v x) (RenewDelegationTokenResponse.of v x t0) :=
  Reads.congr (((Step.field (set := fun (t : RenewDelegationTokenResponse) x => { t with ErrorCode := x }) (read_int16 (Fields.Valid.head (h) hv)))
      |>.andThen (Step.field (set := fun (t : RenewDelegationTokenResponse) x => { t with ExpiryTimestampMs := x }) (read_int64 (Fields.Valid.head (Fields.Valid.tail h) hv)))
      |>.andThen (Step.field (set := fun (t : RenewDelegationTokenResponse) x => { t with ThrottleTimeMs := x }) (read_int32 (Fields.Valid.head (Fields.Valid.tail (Fields.Valid.tail h)) hv))) : Step _ _ _) t0)
    (Writes.eq (fs := Protocol.RenewDelegationTokenResponse) (v := v) (x := x) <| Writes.all hv rfl <| Writes.all hv rfl <| Writes.all hv rfl <| Writes.done).symm rfl

theorem RenewDelegationTokenResponse.parses {v : Int16} (hv : 0 ≤ v) (t0 : RenewDelegationTokenResponse) :
    Parses (RenewDelegationTokenResponse.decode v t0) ((Ty.struct Protocol.RenewDelegationTokenResponse).parse v) (fun x => RenewDelegationTokenResponse.of v x t0) :=
  FParses.parses (fs := Protocol.RenewDelegationTokenResponse)
    (FParses.field hv (set := fun (t : RenewDelegationTokenResponse) x => { t with ErrorCode := x }) par_int16 <|
    FParses.field hv (set := fun (t : RenewDelegationTokenResponse) x => { t with ExpiryTimestampMs := x }) par_int64 <|
    FParses.field hv (set := fun (t : RenewDelegationTokenResponse) x => { t with ThrottleTimeMs := x }) par_int32 <|
    FParses.done)
    (by simp only [RenewDelegationTokenResponse.decode, Dec.andThen_assoc, Dec.andThen_nop]) (Fields.distinct_nodup _ (by decide +kernel)) (fun _ _ => rfl) t0

theorem RenewDelegationTokenResponse.shown {v : Int16} (hv : 0 ≤ v) (x : Val) (h : Protocol.RenewDelegationTokenResponse.Typed v x) :
    Protocol.RenewDelegationTokenResponse.shows v x (RenewDelegationTokenResponse.val (RenewDelegationTokenResponse.of v x {})) = true :=
  Shows.all hv (show_int16 (Fields.Typed.head (h) hv)) <|
    Shows.all hv (show_int64 (Fields.Typed.head (Fields.Typed.tail h) hv)) <|
    Shows.all hv (show_int32 (Fields.Typed.head (Fields.Typed.tail (Fields.Typed.tail h)) hv)) <|
    rfl

end Kafka.Msg
