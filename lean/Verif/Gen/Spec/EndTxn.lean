import Verif.Message.Layout
import Verif.Gen.Model.EndTxn
/-!
Generated by tools/gen_messages.py: specification of the EndTxn messages.
-/
namespace Kafka.Msg

/-- Wire format of `EndTxnRequest`. -/
def EndTxnRequest.wire (_version : Int16) (t : EndTxnRequest) : List Byte :=
  Wire.string t.TransactionalId ++
  Wire.int64 t.ProducerId ++
  Wire.int16 t.ProducerEpoch ++
  Wire.bool t.Committed

/-- Lengths are representable. -/
structure EndTxnRequest.Fits (version : Int16) (t : EndTxnRequest) : Prop where
  TransactionalId : FitsString t.TransactionalId

/-- The value after `t` has been decoded into `t0`. -/
def EndTxnRequest.seen (_version : Int16) (t _t0 : EndTxnRequest) : EndTxnRequest :=
  { TransactionalId := t.TransactionalId,
    ProducerId := t.ProducerId,
    ProducerEpoch := t.ProducerEpoch,
    Committed := t.Committed }

/-- Nothing can be lost. -/
def EndTxnRequest.Canon (_version : Int16) (_t : EndTxnRequest) : Prop := True

/-- The specification of `EndTxnRequest`. -/
def EndTxnRequest.layout : Layout EndTxnRequest.type :=
  { wire := EndTxnRequest.wire, Fits := EndTxnRequest.Fits, seen := EndTxnRequest.seen, Canon := EndTxnRequest.Canon }

/-- Wire format of `EndTxnResponse`. -/
def EndTxnResponse.wire (_version : Int16) (t : EndTxnResponse) : List Byte :=
  Wire.int32 t.ThrottleTimeMs ++
  Wire.int16 t.ErrorCode

/-- No field has a length prefix. -/
def EndTxnResponse.Fits (_version : Int16) (_t : EndTxnResponse) : Prop := True

/-- The value after `t` has been decoded into `t0`. -/
def EndTxnResponse.seen (_version : Int16) (t _t0 : EndTxnResponse) : EndTxnResponse :=
  { ThrottleTimeMs := t.ThrottleTimeMs,
    ErrorCode := t.ErrorCode }

/-- Nothing can be lost. -/
def EndTxnResponse.Canon (_version : Int16) (_t : EndTxnResponse) : Prop := True

/-- The specification of `EndTxnResponse`. -/
def EndTxnResponse.layout : Layout EndTxnResponse.type :=
  { wire := EndTxnResponse.wire, Fits := EndTxnResponse.Fits, seen := EndTxnResponse.seen, Canon := EndTxnResponse.Canon }

end Kafka.Msg
