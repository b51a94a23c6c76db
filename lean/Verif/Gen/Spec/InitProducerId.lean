import Verif.Message.Layout
import Verif.Gen.Model.InitProducerId
/-!
Generated by tools/gen_messages.py: specification of the InitProducerId messages.
-/
namespace Kafka.Msg

/-- Wire format of `InitProducerIdRequest`. -/
def InitProducerIdRequest.wire (_version : Int16) (t : InitProducerIdRequest) : List Byte :=
  Wire.string t.TransactionalId ++
  Wire.int32 t.TransactionTimeoutMs

/-- Lengths are representable. -/
structure InitProducerIdRequest.Fits (version : Int16) (t : InitProducerIdRequest) : Prop where
  TransactionalId : FitsString t.TransactionalId

/-- The value after `t` has been decoded into `t0`. -/
def InitProducerIdRequest.seen (_version : Int16) (t _t0 : InitProducerIdRequest) : InitProducerIdRequest :=
  { TransactionalId := t.TransactionalId,
    TransactionTimeoutMs := t.TransactionTimeoutMs }

/-- Nothing can be lost. -/
def InitProducerIdRequest.Canon (_version : Int16) (_t : InitProducerIdRequest) : Prop := True

/-- The specification of `InitProducerIdRequest`. -/
def InitProducerIdRequest.layout : Layout InitProducerIdRequest.type :=
  { wire := InitProducerIdRequest.wire, Fits := InitProducerIdRequest.Fits, seen := InitProducerIdRequest.seen, Canon := InitProducerIdRequest.Canon }

/-- Wire format of `InitProducerIdResponse`. -/
def InitProducerIdResponse.wire (_version : Int16) (t : InitProducerIdResponse) : List Byte :=
  Wire.int32 t.ThrottleTimeMs ++
  Wire.int16 t.ErrorCode ++
  Wire.int64 t.ProducerId ++
  Wire.int16 t.ProducerEpoch

/-- No field has a length prefix. -/
def InitProducerIdResponse.Fits (_version : Int16) (_t : InitProducerIdResponse) : Prop := True

/-- The value after `t` has been decoded into `t0`. -/
def InitProducerIdResponse.seen (_version : Int16) (t _t0 : InitProducerIdResponse) : InitProducerIdResponse :=
  { ThrottleTimeMs := t.ThrottleTimeMs,
    ErrorCode := t.ErrorCode,
    ProducerId := t.ProducerId,
    ProducerEpoch := t.ProducerEpoch }

/-- Nothing can be lost. -/
def InitProducerIdResponse.Canon (_version : Int16) (_t : InitProducerIdResponse) : Prop := True

/-- The specification of `InitProducerIdResponse`. -/
def InitProducerIdResponse.layout : Layout InitProducerIdResponse.type :=
  { wire := InitProducerIdResponse.wire, Fits := InitProducerIdResponse.Fits, seen := InitProducerIdResponse.seen, Canon := InitProducerIdResponse.Canon }

end Kafka.Msg
