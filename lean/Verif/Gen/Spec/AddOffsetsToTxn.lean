import Verif.Message.Layout
import Verif.Gen.Model.AddOffsetsToTxn
/-!
Generated by tools/gen_messages.py: specification of the AddOffsetsToTxn messages.
-/
namespace Kafka.Msg

/-- Wire format of `AddOffsetsToTxnRequest`. -/
def AddOffsetsToTxnRequest.wire (_version : Int16) (t : AddOffsetsToTxnRequest) : List Byte :=
  Wire.string t.TransactionalId ++
  Wire.int64 t.ProducerId ++
  Wire.int16 t.ProducerEpoch ++
  Wire.string t.GroupId

/-- Lengths are representable. -/
structure AddOffsetsToTxnRequest.Fits (version : Int16) (t : AddOffsetsToTxnRequest) : Prop where
  TransactionalId : FitsString t.TransactionalId
  GroupId : FitsString t.GroupId

/-- The value after `t` has been decoded into `t0`. -/
def AddOffsetsToTxnRequest.seen (_version : Int16) (t _t0 : AddOffsetsToTxnRequest) : AddOffsetsToTxnRequest :=
  { TransactionalId := t.TransactionalId,
    ProducerId := t.ProducerId,
    ProducerEpoch := t.ProducerEpoch,
    GroupId := t.GroupId }

/-- Nothing can be lost. -/
def AddOffsetsToTxnRequest.Canon (_version : Int16) (_t : AddOffsetsToTxnRequest) : Prop := True

/-- The specification of `AddOffsetsToTxnRequest`. -/
def AddOffsetsToTxnRequest.layout : Layout AddOffsetsToTxnRequest.type :=
  { wire := AddOffsetsToTxnRequest.wire, Fits := AddOffsetsToTxnRequest.Fits, seen := AddOffsetsToTxnRequest.seen, Canon := AddOffsetsToTxnRequest.Canon }

/-- Wire format of `AddOffsetsToTxnResponse`. -/
def AddOffsetsToTxnResponse.wire (_version : Int16) (t : AddOffsetsToTxnResponse) : List Byte :=
  Wire.int32 t.ThrottleTimeMs ++
  Wire.int16 t.ErrorCode

/-- No field has a length prefix. -/
def AddOffsetsToTxnResponse.Fits (_version : Int16) (_t : AddOffsetsToTxnResponse) : Prop := True

/-- The value after `t` has been decoded into `t0`. -/
def AddOffsetsToTxnResponse.seen (_version : Int16) (t _t0 : AddOffsetsToTxnResponse) : AddOffsetsToTxnResponse :=
  { ThrottleTimeMs := t.ThrottleTimeMs,
    ErrorCode := t.ErrorCode }

/-- Nothing can be lost. -/
def AddOffsetsToTxnResponse.Canon (_version : Int16) (_t : AddOffsetsToTxnResponse) : Prop := True

/-- The specification of `AddOffsetsToTxnResponse`. -/
def AddOffsetsToTxnResponse.layout : Layout AddOffsetsToTxnResponse.type :=
  { wire := AddOffsetsToTxnResponse.wire, Fits := AddOffsetsToTxnResponse.Fits, seen := AddOffsetsToTxnResponse.seen, Canon := AddOffsetsToTxnResponse.Canon }

end Kafka.Msg
