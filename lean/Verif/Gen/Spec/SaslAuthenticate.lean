import Verif.Message.Layout
import Verif.Gen.Model.SaslAuthenticate
/-!
Generated by tools/gen_messages.py: specification of the SaslAuthenticate messages.
-/
namespace Kafka.Msg

/-- Wire format of `SaslAuthenticateRequest`. -/
def SaslAuthenticateRequest.wire (_version : Int16) (t : SaslAuthenticateRequest) : List Byte :=
  Wire.bytes t.AuthBytes

/-- Lengths are representable. -/
structure SaslAuthenticateRequest.Fits (version : Int16) (t : SaslAuthenticateRequest) : Prop where
  AuthBytes : FitsSlice t.AuthBytes

/-- The value after `t` has been decoded into `t0`. -/
def SaslAuthenticateRequest.seen (_version : Int16) (t _t0 : SaslAuthenticateRequest) : SaslAuthenticateRequest :=
  { AuthBytes := t.AuthBytes.nonNil }

/-- Nothing in `t` is lost at this version. -/
structure SaslAuthenticateRequest.Canon (version : Int16) (t : SaslAuthenticateRequest) : Prop where
  AuthBytes : t.AuthBytes.NotNil

/-- The specification of `SaslAuthenticateRequest`. -/
def SaslAuthenticateRequest.layout : Layout SaslAuthenticateRequest.type :=
  { wire := SaslAuthenticateRequest.wire, Fits := SaslAuthenticateRequest.Fits, seen := SaslAuthenticateRequest.seen, Canon := SaslAuthenticateRequest.Canon }

/-- Wire format of `SaslAuthenticateResponse`. -/
def SaslAuthenticateResponse.wire (version : Int16) (t : SaslAuthenticateResponse) : List Byte :=
  Wire.int16 t.ErrorCode ++
  Wire.string t.ErrorMessage ++
  Wire.bytes t.AuthBytes ++
  Wire.when (version ≥ 1) (Wire.int64 t.SessionLifetimeMs)

/-- Lengths are representable. -/
structure SaslAuthenticateResponse.Fits (version : Int16) (t : SaslAuthenticateResponse) : Prop where
  ErrorMessage : FitsString t.ErrorMessage
  AuthBytes : FitsSlice t.AuthBytes

/-- The value after `t` has been decoded into `t0`. -/
def SaslAuthenticateResponse.seen (version : Int16) (t t0 : SaslAuthenticateResponse) : SaslAuthenticateResponse :=
  { ErrorCode := t.ErrorCode,
    ErrorMessage := t.ErrorMessage,
    AuthBytes := t.AuthBytes.nonNil,
    SessionLifetimeMs := if version ≥ 1 then t.SessionLifetimeMs else t0.SessionLifetimeMs }

/-- Nothing in `t` is lost at this version. -/
structure SaslAuthenticateResponse.Canon (version : Int16) (t : SaslAuthenticateResponse) : Prop where
  AuthBytes : t.AuthBytes.NotNil
  SessionLifetimeMs : ¬(version ≥ 1) → t.SessionLifetimeMs = 0

/-- The specification of `SaslAuthenticateResponse`. -/
def SaslAuthenticateResponse.layout : Layout SaslAuthenticateResponse.type :=
  { wire := SaslAuthenticateResponse.wire, Fits := SaslAuthenticateResponse.Fits, seen := SaslAuthenticateResponse.seen, Canon := SaslAuthenticateResponse.Canon }

end Kafka.Msg
