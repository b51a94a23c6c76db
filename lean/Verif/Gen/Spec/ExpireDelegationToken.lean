import Verif.Message.Layout
import Verif.Gen.Model.ExpireDelegationToken
/-!
Generated by tools/gen_messages.py: specification of the ExpireDelegationToken messages.
-/
namespace Kafka.Msg

/-- Wire format of `ExpireDelegationTokenRequest`. -/
def ExpireDelegationTokenRequest.wire (_version : Int16) (t : ExpireDelegationTokenRequest) : List Byte :=
  Wire.bytes t.Hmac ++
  Wire.int64 t.ExpiryTimePeriodMs

/-- Lengths are representable. -/
structure ExpireDelegationTokenRequest.Fits (version : Int16) (t : ExpireDelegationTokenRequest) : Prop where
  Hmac : FitsSlice t.Hmac

/-- The value after `t` has been decoded into `t0`. -/
def ExpireDelegationTokenRequest.seen (_version : Int16) (t _t0 : ExpireDelegationTokenRequest) : ExpireDelegationTokenRequest :=
  { Hmac := t.Hmac.nonNil,
    ExpiryTimePeriodMs := t.ExpiryTimePeriodMs }

/-- Nothing in `t` is lost at this version. -/
structure ExpireDelegationTokenRequest.Canon (version : Int16) (t : ExpireDelegationTokenRequest) : Prop where
  Hmac : t.Hmac.NotNil

/-- The specification of `ExpireDelegationTokenRequest`. -/
def ExpireDelegationTokenRequest.layout : Layout ExpireDelegationTokenRequest.type :=
  { wire := ExpireDelegationTokenRequest.wire, Fits := ExpireDelegationTokenRequest.Fits, seen := ExpireDelegationTokenRequest.seen, Canon := ExpireDelegationTokenRequest.Canon }

/-- Wire format of `ExpireDelegationTokenResponse`. -/
def ExpireDelegationTokenResponse.wire (_version : Int16) (t : ExpireDelegationTokenResponse) : List Byte :=
  Wire.int16 t.ErrorCode ++
  Wire.int64 t.ExpiryTimestampMs ++
  Wire.int32 t.ThrottleTimeMs

/-- No field has a length prefix. -/
def ExpireDelegationTokenResponse.Fits (_version : Int16) (_t : ExpireDelegationTokenResponse) : Prop := True

/-- The value after `t` has been decoded into `t0`. -/
def ExpireDelegationTokenResponse.seen (_version : Int16) (t _t0 : ExpireDelegationTokenResponse) : ExpireDelegationTokenResponse :=
  { ErrorCode := t.ErrorCode,
    ExpiryTimestampMs := t.ExpiryTimestampMs,
    ThrottleTimeMs := t.ThrottleTimeMs }

/-- Nothing can be lost. -/
def ExpireDelegationTokenResponse.Canon (_version : Int16) (_t : ExpireDelegationTokenResponse) : Prop := True

/-- The specification of `ExpireDelegationTokenResponse`. -/
def ExpireDelegationTokenResponse.layout : Layout ExpireDelegationTokenResponse.type :=
  { wire := ExpireDelegationTokenResponse.wire, Fits := ExpireDelegationTokenResponse.Fits, seen := ExpireDelegationTokenResponse.seen, Canon := ExpireDelegationTokenResponse.Canon }

end Kafka.Msg
