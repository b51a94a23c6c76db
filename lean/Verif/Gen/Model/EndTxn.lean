import Verif.Message.Steps
/-!
Generated by tools/gen_messages.py from message/messages.gen.go: model of the EndTxn messages.
-/
namespace Kafka.Msg

/-- message/messages.gen.go:6941-6946 `type EndTxnRequest struct`; the defaults are the Go zero values. -/
@[ext] structure EndTxnRequest where
  TransactionalId : GoString := []
  ProducerId : Int64 := 0
  ProducerEpoch : Int16 := 0
  Committed : Bool := false

/-- message/messages.gen.go:6949-6956 `EndTxnRequest.Size` -/
def EndTxnRequest.size (_version : Int16) (t : EndTxnRequest) : Int32 :=
   (Sizeof.add (Sizeof.string t.TransactionalId) ;;
    Sizeof.add Sizeof.int64 ;;
    Sizeof.add Sizeof.int16 ;;
    Sizeof.add Sizeof.bool) 0

/-- message/messages.gen.go:6959-6964 `EndTxnRequest.Encode` -/
def EndTxnRequest.encode (_version : Int16) (t : EndTxnRequest) : Encoder → Encoder :=
    (·.putString t.TransactionalId) ;;
    (·.putInt64 t.ProducerId) ;;
    (·.putInt16 t.ProducerEpoch) ;;
    (·.putBool t.Committed)

/-- message/messages.gen.go:6967-6986 `EndTxnRequest.Decode`; the second argument is the receiver. -/
def EndTxnRequest.decode (_version : Int16) : EndTxnRequest → Dec EndTxnRequest :=
    Dec.field Dec.string (fun t x => { t with TransactionalId := x }) ;>
    Dec.field Dec.int64 (fun t x => { t with ProducerId := x }) ;>
    Dec.field Dec.int16 (fun t x => { t with ProducerEpoch := x }) ;>
    Dec.field Dec.bool (fun t x => { t with Committed := x })

/-- The type `EndTxnRequest` with its methods. -/
def EndTxnRequest.type : MsgType :=
  { name := "EndTxnRequest", T := EndTxnRequest, zero := {}, size := EndTxnRequest.size, encode := EndTxnRequest.encode,
    decode := EndTxnRequest.decode }

/-- message/messages.gen.go:6989-6992 `type EndTxnResponse struct`; the defaults are the Go zero values. -/
@[ext] structure EndTxnResponse where
  ThrottleTimeMs : Int32 := 0
  ErrorCode : Int16 := 0

/-- message/messages.gen.go:6995-7000 `EndTxnResponse.Size` -/
def EndTxnResponse.size (_version : Int16) (_t : EndTxnResponse) : Int32 :=
   (Sizeof.add Sizeof.int32 ;;
    Sizeof.add Sizeof.int16) 0

/-- message/messages.gen.go:7003-7006 `EndTxnResponse.Encode` -/
def EndTxnResponse.encode (_version : Int16) (t : EndTxnResponse) : Encoder → Encoder :=
    (·.putInt32 t.ThrottleTimeMs) ;;
    (·.putInt16 t.ErrorCode)

/-- message/messages.gen.go:7009-7020 `EndTxnResponse.Decode`; the second argument is the receiver. -/
def EndTxnResponse.decode (_version : Int16) : EndTxnResponse → Dec EndTxnResponse :=
    Dec.field Dec.int32 (fun t x => { t with ThrottleTimeMs := x }) ;>
    Dec.field Dec.int16 (fun t x => { t with ErrorCode := x })

/-- The type `EndTxnResponse` with its methods. -/
def EndTxnResponse.type : MsgType :=
  { name := "EndTxnResponse", T := EndTxnResponse, zero := {}, size := EndTxnResponse.size, encode := EndTxnResponse.encode,
    decode := EndTxnResponse.decode }

end Kafka.Msg
