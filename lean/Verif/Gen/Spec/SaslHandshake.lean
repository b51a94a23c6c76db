import Verif.Message.Layout
import Verif.Gen.Model.SaslHandshake
/-!
Generated by tools/gen_messages.py: specification of the SaslHandshake messages.
-/
namespace Kafka.Msg

/-- Wire format of `SaslHandshakeRequest`. -/
def SaslHandshakeRequest.wire (_version : Int16) (t : SaslHandshakeRequest) : List Byte :=
  Wire.string t.Mechanism

/-- Lengths are representable. -/
structure SaslHandshakeRequest.Fits (version : Int16) (t : SaslHandshakeRequest) : Prop where
  Mechanism : FitsString t.Mechanism

/-- The value after `t` has been decoded into `t0`. -/
def SaslHandshakeRequest.seen (_version : Int16) (t _t0 : SaslHandshakeRequest) : SaslHandshakeRequest :=
  { Mechanism := t.Mechanism }

/-- Nothing can be lost. -/
def SaslHandshakeRequest.Canon (_version : Int16) (_t : SaslHandshakeRequest) : Prop := True

/-- The specification of `SaslHandshakeRequest`. -/
def SaslHandshakeRequest.layout : Layout SaslHandshakeRequest.type :=
  { wire := SaslHandshakeRequest.wire, Fits := SaslHandshakeRequest.Fits, seen := SaslHandshakeRequest.seen, Canon := SaslHandshakeRequest.Canon }

/-- Wire format of `SaslHandshakeResponse`. -/
def SaslHandshakeResponse.wire (_version : Int16) (t : SaslHandshakeResponse) : List Byte :=
  Wire.int16 t.ErrorCode ++
  Wire.stringArray t.Mechanisms

/-- Lengths are representable. -/
structure SaslHandshakeResponse.Fits (version : Int16) (t : SaslHandshakeResponse) : Prop where
  Mechanisms : FitsStrings t.Mechanisms

/-- The value after `t` has been decoded into `t0`. -/
def SaslHandshakeResponse.seen (_version : Int16) (t _t0 : SaslHandshakeResponse) : SaslHandshakeResponse :=
  { ErrorCode := t.ErrorCode,
    Mechanisms := t.Mechanisms }

/-- Nothing can be lost. -/
def SaslHandshakeResponse.Canon (_version : Int16) (_t : SaslHandshakeResponse) : Prop := True

/-- The specification of `SaslHandshakeResponse`. -/
def SaslHandshakeResponse.layout : Layout SaslHandshakeResponse.type :=
  { wire := SaslHandshakeResponse.wire, Fits := SaslHandshakeResponse.Fits, seen := SaslHandshakeResponse.seen, Canon := SaslHandshakeResponse.Canon }

end Kafka.Msg
