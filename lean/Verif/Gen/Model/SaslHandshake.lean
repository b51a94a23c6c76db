import Verif.Message.Steps
/-!
Generated by tools/gen_messages.py from message/messages.gen.go: model of the SaslHandshake messages.
-/
namespace Kafka.Msg

/-- message/messages.gen.go:5148-5150 `type SaslHandshakeRequest struct`; the defaults are the Go zero values. -/
@[ext] structure SaslHandshakeRequest where
  Mechanism : GoString := []

/-- message/messages.gen.go:5153-5157 `SaslHandshakeRequest.Size` -/
def SaslHandshakeRequest.size (_version : Int16) (t : SaslHandshakeRequest) : Int32 :=
   (Sizeof.add (Sizeof.string t.Mechanism)) 0

/-- message/messages.gen.go:5160-5162 `SaslHandshakeRequest.Encode` -/
def SaslHandshakeRequest.encode (_version : Int16) (t : SaslHandshakeRequest) : Encoder → Encoder :=
    (·.putString t.Mechanism)

/-- message/messages.gen.go:5165-5172 `SaslHandshakeRequest.Decode`; the second argument is the receiver. -/
def SaslHandshakeRequest.decode (_version : Int16) : SaslHandshakeRequest → Dec SaslHandshakeRequest :=
    Dec.field Dec.string (fun t x => { t with Mechanism := x })

/-- The type `SaslHandshakeRequest` with its methods. -/
def SaslHandshakeRequest.type : MsgType :=
  { name := "SaslHandshakeRequest", T := SaslHandshakeRequest, zero := {}, size := SaslHandshakeRequest.size, encode := SaslHandshakeRequest.encode,
    decode := SaslHandshakeRequest.decode }

/-- message/messages.gen.go:5175-5178 `type SaslHandshakeResponse struct`; the defaults are the Go zero values. -/
@[ext] structure SaslHandshakeResponse where
  ErrorCode : Int16 := 0
  Mechanisms : Slice GoString := none

/-- message/messages.gen.go:5181-5186 `SaslHandshakeResponse.Size` -/
def SaslHandshakeResponse.size (_version : Int16) (t : SaslHandshakeResponse) : Int32 :=
   (Sizeof.add Sizeof.int16 ;;
    Sizeof.add (Sizeof.stringArray t.Mechanisms)) 0

/-- message/messages.gen.go:5189-5192 `SaslHandshakeResponse.Encode` -/
def SaslHandshakeResponse.encode (_version : Int16) (t : SaslHandshakeResponse) : Encoder → Encoder :=
    (·.putInt16 t.ErrorCode) ;;
    (·.putStringArray t.Mechanisms)

/-- message/messages.gen.go:5195-5206 `SaslHandshakeResponse.Decode`; the second argument is the receiver. -/
def SaslHandshakeResponse.decode (_version : Int16) : SaslHandshakeResponse → Dec SaslHandshakeResponse :=
    Dec.field Dec.int16 (fun t x => { t with ErrorCode := x }) ;>
    Dec.field Dec.stringArray (fun t x => { t with Mechanisms := x })

/-- The type `SaslHandshakeResponse` with its methods. -/
def SaslHandshakeResponse.type : MsgType :=
  { name := "SaslHandshakeResponse", T := SaslHandshakeResponse, zero := {}, size := SaslHandshakeResponse.size, encode := SaslHandshakeResponse.encode,
    decode := SaslHandshakeResponse.decode }

end Kafka.Msg
