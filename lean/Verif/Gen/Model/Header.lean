import Verif.Message.Steps
/-!
Generated by tools/gen_messages.py from message/messages.gen.go: model of the Header messages.
-/
namespace Kafka.Msg

/-- message/messages.gen.go:439-444 `type RequestHeader struct`; the defaults are the Go zero values. -/
@[ext] structure RequestHeader where
  RequestApiKey : Int16 := 0
  RequestApiVersion : Int16 := 0
  CorrelationId : Int32 := 0
  ClientId : GoString := []

/-- message/messages.gen.go:447-456 `RequestHeader.Size` -/
def RequestHeader.size (version : Int16) (t : RequestHeader) : Int32 :=
   (Sizeof.add Sizeof.int16 ;;
    Sizeof.add Sizeof.int16 ;;
    Sizeof.add Sizeof.int32 ;;
    onlyIf (version ≥ 1) (Sizeof.add (Sizeof.string t.ClientId))) 0

/-- message/messages.gen.go:459-466 `RequestHeader.Encode` -/
def RequestHeader.encode (version : Int16) (t : RequestHeader) : Encoder → Encoder :=
    (·.putInt16 t.RequestApiKey) ;;
    (·.putInt16 t.RequestApiVersion) ;;
    (·.putInt32 t.CorrelationId) ;;
    onlyIf (version ≥ 1) (·.putString t.ClientId)

/-- message/messages.gen.go:469-490 `RequestHeader.Decode`; the second argument is the receiver. -/
def RequestHeader.decode (version : Int16) : RequestHeader → Dec RequestHeader :=
    Dec.field Dec.int16 (fun t x => { t with RequestApiKey := x }) ;>
    Dec.field Dec.int16 (fun t x => { t with RequestApiVersion := x }) ;>
    Dec.field Dec.int32 (fun t x => { t with CorrelationId := x }) ;>
    Dec.onlyIf (version ≥ 1) (Dec.field Dec.string (fun t x => { t with ClientId := x }))

/-- The type `RequestHeader` with its methods. -/
def RequestHeader.type : MsgType :=
  { name := "RequestHeader", T := RequestHeader, zero := {}, size := RequestHeader.size, encode := RequestHeader.encode,
    decode := RequestHeader.decode }

/-- message/messages.gen.go:493-495 `type ResponseHeader struct`; the defaults are the Go zero values. -/
@[ext] structure ResponseHeader where
  CorrelationId : Int32 := 0

/-- message/messages.gen.go:498-502 `ResponseHeader.Size` -/
def ResponseHeader.size (_version : Int16) (_t : ResponseHeader) : Int32 :=
   (Sizeof.add Sizeof.int32) 0

/-- message/messages.gen.go:505-507 `ResponseHeader.Encode` -/
def ResponseHeader.encode (_version : Int16) (t : ResponseHeader) : Encoder → Encoder :=
    (·.putInt32 t.CorrelationId)

/-- message/messages.gen.go:510-517 `ResponseHeader.Decode`; the second argument is the receiver. -/
def ResponseHeader.decode (_version : Int16) : ResponseHeader → Dec ResponseHeader :=
    Dec.field Dec.int32 (fun t x => { t with CorrelationId := x })

/-- The type `ResponseHeader` with its methods. -/
def ResponseHeader.type : MsgType :=
  { name := "ResponseHeader", T := ResponseHeader, zero := {}, size := ResponseHeader.size, encode := ResponseHeader.encode,
    decode := ResponseHeader.decode }

end Kafka.Msg
