import Verif.Message.Layout
import Verif.Gen.Model.Header
/-!
Generated by tools/gen_messages.py: specification of the Header messages.
-/
namespace Kafka.Msg

/-- Wire format of `RequestHeader`. -/
def RequestHeader.wire (version : Int16) (t : RequestHeader) : List Byte :=
  Wire.int16 t.RequestApiKey ++
  Wire.int16 t.RequestApiVersion ++
  Wire.int32 t.CorrelationId ++
  Wire.when (version ≥ 1) (Wire.string t.ClientId)

/-- Lengths are representable. -/
structure RequestHeader.Fits (version : Int16) (t : RequestHeader) : Prop where
  ClientId : version ≥ 1 → FitsString t.ClientId

/-- The value after `t` has been decoded into `t0`. -/
def RequestHeader.seen (version : Int16) (t t0 : RequestHeader) : RequestHeader :=
  { RequestApiKey := t.RequestApiKey,
    RequestApiVersion := t.RequestApiVersion,
    CorrelationId := t.CorrelationId,
    ClientId := if version ≥ 1 then t.ClientId else t0.ClientId }

/-- Nothing in `t` is lost at this version. -/
structure RequestHeader.Canon (version : Int16) (t : RequestHeader) : Prop where
  ClientId : ¬(version ≥ 1) → t.ClientId = []

/-- The specification of `RequestHeader`. -/
def RequestHeader.layout : Layout RequestHeader.type :=
  { wire := RequestHeader.wire, Fits := RequestHeader.Fits, seen := RequestHeader.seen, Canon := RequestHeader.Canon }

/-- Wire format of `ResponseHeader`. -/
def ResponseHeader.wire (_version : Int16) (t : ResponseHeader) : List Byte :=
  Wire.int32 t.CorrelationId

/-- No field has a length prefix. -/
def ResponseHeader.Fits (_version : Int16) (_t : ResponseHeader) : Prop := True

/-- The value after `t` has been decoded into `t0`. -/
def ResponseHeader.seen (_version : Int16) (t _t0 : ResponseHeader) : ResponseHeader :=
  { CorrelationId := t.CorrelationId }

/-- Nothing can be lost. -/
def ResponseHeader.Canon (_version : Int16) (_t : ResponseHeader) : Prop := True

/-- The specification of `ResponseHeader`. -/
def ResponseHeader.layout : Layout ResponseHeader.type :=
  { wire := ResponseHeader.wire, Fits := ResponseHeader.Fits, seen := ResponseHeader.seen, Canon := ResponseHeader.Canon }

end Kafka.Msg
