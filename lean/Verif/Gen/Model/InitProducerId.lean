import Verif.Message.Steps
/-!
Generated by tools/gen_messages.py from message/messages.gen.go: model of the InitProducerId messages.
-/
namespace Kafka.Msg

/-- message/messages.gen.go:6232-6235 `type InitProducerIdRequest struct`; the defaults are the Go zero values. -/
@[ext] structure InitProducerIdRequest where
  TransactionalId : GoString := []
  TransactionTimeoutMs : Int32 := 0

/-- message/messages.gen.go:6238-6243 `InitProducerIdRequest.Size` -/
def InitProducerIdRequest.size (_version : Int16) (t : InitProducerIdRequest) : Int32 :=
   (Sizeof.add (Sizeof.string t.TransactionalId) ;;
    Sizeof.add Sizeof.int32) 0

/-- message/messages.gen.go:6246-6249 `InitProducerIdRequest.Encode` -/
def InitProducerIdRequest.encode (_version : Int16) (t : InitProducerIdRequest) : Encoder → Encoder :=
    (·.putString t.TransactionalId) ;;
    (·.putInt32 t.TransactionTimeoutMs)

/-- message/messages.gen.go:6252-6263 `InitProducerIdRequest.Decode`; the second argument is the receiver. -/
def InitProducerIdRequest.decode (_version : Int16) : InitProducerIdRequest → Dec InitProducerIdRequest :=
    Dec.field Dec.string (fun t x => { t with TransactionalId := x }) ;>
    Dec.field Dec.int32 (fun t x => { t with TransactionTimeoutMs := x })

/-- The type `InitProducerIdRequest` with its methods. -/
def InitProducerIdRequest.type : MsgType :=
  { name := "InitProducerIdRequest", T := InitProducerIdRequest, zero := {}, size := InitProducerIdRequest.size, encode := InitProducerIdRequest.encode,
    decode := InitProducerIdRequest.decode }

/-- message/messages.gen.go:6266-6271 `type InitProducerIdResponse struct`; the defaults are the Go zero values. -/
@[ext] structure InitProducerIdResponse where
  ThrottleTimeMs : Int32 := 0
  ErrorCode : Int16 := 0
  ProducerId : Int64 := 0
  ProducerEpoch : Int16 := 0

/-- message/messages.gen.go:6274-6281 `InitProducerIdResponse.Size` -/
def InitProducerIdResponse.size (_version : Int16) (_t : InitProducerIdResponse) : Int32 :=
   (Sizeof.add Sizeof.int32 ;;
    Sizeof.add Sizeof.int16 ;;
    Sizeof.add Sizeof.int64 ;;
    Sizeof.add Sizeof.int16) 0

/-- message/messages.gen.go:6284-6289 `InitProducerIdResponse.Encode` -/
def InitProducerIdResponse.encode (_version : Int16) (t : InitProducerIdResponse) : Encoder → Encoder :=
    (·.putInt32 t.ThrottleTimeMs) ;;
    (·.putInt16 t.ErrorCode) ;;
    (·.putInt64 t.ProducerId) ;;
    (·.putInt16 t.ProducerEpoch)

/-- message/messages.gen.go:6292-6311 `InitProducerIdResponse.Decode`; the second argument is the receiver. -/
def InitProducerIdResponse.decode (_version : Int16) : InitProducerIdResponse → Dec InitProducerIdResponse :=
    Dec.field Dec.int32 (fun t x => { t with ThrottleTimeMs := x }) ;>
    Dec.field Dec.int16 (fun t x => { t with ErrorCode := x }) ;>
    Dec.field Dec.int64 (fun t x => { t with ProducerId := x }) ;>
    Dec.field Dec.int16 (fun t x => { t with ProducerEpoch := x })

/-- The type `InitProducerIdResponse` with its methods. -/
def InitProducerIdResponse.type : MsgType :=
  { name := "InitProducerIdResponse", T := InitProducerIdResponse, zero := {}, size := InitProducerIdResponse.size, encode := InitProducerIdResponse.encode,
    decode := InitProducerIdResponse.decode }

end Kafka.Msg
