import Verif.Message.Layout
import Verif.Gen.Model.RenewDelegationToken
/-!
Generated by tools/gen_messages.py: specification of the RenewDelegationToken messages.
-/
namespace Kafka.Msg

/-- Wire format of `RenewDelegationTokenRequest`. -/
def RenewDelegationTokenRequest.wire (_version : Int16) (t : RenewDelegationTokenRequest) : List Byte :=
  Wire.bytes t.Hmac ++
  Wire.int64 t.RenewPeriodMs

/-- Lengths are representable. -/
structure RenewDelegationTokenRequest.Fits (version : Int16) (t : RenewDelegationTokenRequest) : Prop where
  Hmac : FitsSlice t.Hmac

/-- The value after `t` has been decoded into `t0`. -/
def RenewDelegationTokenRequest.seen (_version : Int16) (t _t0 : RenewDelegationTokenRequest) : RenewDelegationTokenRequest :=
  { Hmac := t.Hmac.nonNil,
    RenewPeriodMs := t.RenewPeriodMs }

/-- Nothing in `t` is lost at this version. -/
structure RenewDelegationTokenRequest.Canon (version : Int16) (t : RenewDelegationTokenRequest) : Prop where
  Hmac : t.Hmac.NotNil

/-- The specification of `RenewDelegationTokenRequest`. -/
def RenewDelegationTokenRequest.layout : Layout RenewDelegationTokenRequest.type :=
  { wire := RenewDelegationTokenRequest.wire, Fits := RenewDelegationTokenRequest.Fits, seen := RenewDelegationTokenRequest.seen, Canon := RenewDelegationTokenRequest.Canon }

/-- Wire format of `RenewDelegationTokenResponse`. -/
def RenewDelegationTokenResponse.wire (_version : Int16) (t : RenewDelegationTokenResponse) : List Byte :=
  Wire.int16 t.ErrorCode ++
  Wire.int64 t.ExpiryTimestampMs ++
  Wire.int32 t.ThrottleTimeMs

/-- No field has a length prefix. -/
def RenewDelegationTokenResponse.Fits (_version : Int16) (_t : RenewDelegationTokenResponse) : Prop := True

/-- The value after `t` has been decoded into `t0`. -/
def RenewDelegationTokenResponse.seen (_version : Int16) (t _t0 : RenewDelegationTokenResponse) : RenewDelegationTokenResponse :=
  { ErrorCode := t.ErrorCode,
    ExpiryTimestampMs := t.ExpiryTimestampMs,
    ThrottleTimeMs := t.ThrottleTimeMs }

/-- Nothing can be lost. -/
def RenewDelegationTokenResponse.Canon (_version : Int16) (_t : RenewDelegationTokenResponse) : Prop := True

/-- The specification of `RenewDelegationTokenResponse`. -/
def RenewDelegationTokenResponse.layout : Layout RenewDelegationTokenResponse.type :=
  { wire := RenewDelegationTokenResponse.wire, Fits := RenewDelegationTokenResponse.Fits, seen := RenewDelegationTokenResponse.seen, Canon := RenewDelegationTokenResponse.Canon }

end Kafka.Msg
