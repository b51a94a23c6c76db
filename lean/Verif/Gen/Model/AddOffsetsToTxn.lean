import Verif.Message.Steps
/-!
Generated by tools/gen_messages.py from message/messages.gen.go: model of the AddOffsetsToTxn messages.
-/
namespace Kafka.Msg

/-- message/messages.gen.go:6859-6864 `type AddOffsetsToTxnRequest struct`; the defaults are the Go zero values. -/
@[ext] structure AddOffsetsToTxnRequest where
  TransactionalId : GoString := []
  ProducerId : Int64 := 0
  ProducerEpoch : Int16 := 0
  GroupId : GoString := []

/-- message/messages.gen.go:6867-6874 `AddOffsetsToTxnRequest.Size` -/
def AddOffsetsToTxnRequest.size (_version : Int16) (t : AddOffsetsToTxnRequest) : Int32 :=
   (Sizeof.add (Sizeof.string t.TransactionalId) ;;
    Sizeof.add Sizeof.int64 ;;
    Sizeof.add Sizeof.int16 ;;
    Sizeof.add (Sizeof.string t.GroupId)) 0

/-- message/messages.gen.go:6877-6882 `AddOffsetsToTxnRequest.Encode` -/
def AddOffsetsToTxnRequest.encode (_version : Int16) (t : AddOffsetsToTxnRequest) : Encoder → Encoder :=
    (·.putString t.TransactionalId) ;;
    (·.putInt64 t.ProducerId) ;;
    (·.putInt16 t.ProducerEpoch) ;;
    (·.putString t.GroupId)

/-- message/messages.gen.go:6885-6904 `AddOffsetsToTxnRequest.Decode`; the second argument is the receiver. -/
def AddOffsetsToTxnRequest.decode (_version : Int16) : AddOffsetsToTxnRequest → Dec AddOffsetsToTxnRequest :=
    Dec.field Dec.string (fun t x => { t with TransactionalId := x }) ;>
    Dec.field Dec.int64 (fun t x => { t with ProducerId := x }) ;>
    Dec.field Dec.int16 (fun t x => { t with ProducerEpoch := x }) ;>
    Dec.field Dec.string (fun t x => { t with GroupId := x })

/-- The type `AddOffsetsToTxnRequest` with its methods. -/
def AddOffsetsToTxnRequest.type : MsgType :=
  { name := "AddOffsetsToTxnRequest", T := AddOffsetsToTxnRequest, zero := {}, size := AddOffsetsToTxnRequest.size, encode := AddOffsetsToTxnRequest.encode,
    decode := AddOffsetsToTxnRequest.decode }

/-- message/messages.gen.go:6907-6910 `type AddOffsetsToTxnResponse struct`; the defaults are the Go zero values. -/
@[ext] structure AddOffsetsToTxnResponse where
  ThrottleTimeMs : Int32 := 0
  ErrorCode : Int16 := 0

/-- message/messages.gen.go:6913-6918 `AddOffsetsToTxnResponse.Size` -/
def AddOffsetsToTxnResponse.size (_version : Int16) (_t : AddOffsetsToTxnResponse) : Int32 :=
   (Sizeof.add Sizeof.int32 ;;
    Sizeof.add Sizeof.int16) 0

/-- message/messages.gen.go:6921-6924 `AddOffsetsToTxnResponse.Encode` -/
def AddOffsetsToTxnResponse.encode (_version : Int16) (t : AddOffsetsToTxnResponse) : Encoder → Encoder :=
    (·.putInt32 t.ThrottleTimeMs) ;;
    (·.putInt16 t.ErrorCode)

/-- message/messages.gen.go:6927-6938 `AddOffsetsToTxnResponse.Decode`; the second argument is the receiver. -/
def AddOffsetsToTxnResponse.decode (_version : Int16) : AddOffsetsToTxnResponse → Dec AddOffsetsToTxnResponse :=
    Dec.field Dec.int32 (fun t x => { t with ThrottleTimeMs := x }) ;>
    Dec.field Dec.int16 (fun t x => { t with ErrorCode := x })

/-- The type `AddOffsetsToTxnResponse` with its methods. -/
def AddOffsetsToTxnResponse.type : MsgType :=
  { name := "AddOffsetsToTxnResponse", T := AddOffsetsToTxnResponse, zero := {}, size := AddOffsetsToTxnResponse.size, encode := AddOffsetsToTxnResponse.encode,
    decode := AddOffsetsToTxnResponse.decode }

end Kafka.Msg
