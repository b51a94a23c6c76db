import Verif.Message.Steps
/-!
Generated by tools/gen_messages.py from message/messages.gen.go: model of the SaslAuthenticate messages.
-/
namespace Kafka.Msg

/-- message/messages.gen.go:9592-9594 `type SaslAuthenticateRequest struct`; the defaults are the Go zero values. -/
@[ext] structure SaslAuthenticateRequest where
  AuthBytes : Slice Byte := none

/-- message/messages.gen.go:9597-9601 `SaslAuthenticateRequest.Size` -/
def SaslAuthenticateRequest.size (_version : Int16) (t : SaslAuthenticateRequest) : Int32 :=
   (Sizeof.add (Sizeof.bytes t.AuthBytes)) 0

/-- message/messages.gen.go:9604-9606 `SaslAuthenticateRequest.Encode` -/
def SaslAuthenticateRequest.encode (_version : Int16) (t : SaslAuthenticateRequest) : Encoder → Encoder :=
    (·.putBytes t.AuthBytes)

/-- message/messages.gen.go:9609-9616 `SaslAuthenticateRequest.Decode`; the second argument is the receiver. -/
def SaslAuthenticateRequest.decode (_version : Int16) : SaslAuthenticateRequest → Dec SaslAuthenticateRequest :=
    Dec.field Dec.bytes (fun t x => { t with AuthBytes := x })

/-- The type `SaslAuthenticateRequest` with its methods. -/
def SaslAuthenticateRequest.type : MsgType :=
  { name := "SaslAuthenticateRequest", T := SaslAuthenticateRequest, zero := {}, size := SaslAuthenticateRequest.size, encode := SaslAuthenticateRequest.encode,
    decode := SaslAuthenticateRequest.decode }

/-- message/messages.gen.go:9619-9624 `type SaslAuthenticateResponse struct`; the defaults are the Go zero values. -/
@[ext] structure SaslAuthenticateResponse where
  ErrorCode : Int16 := 0
  ErrorMessage : GoString := []
  AuthBytes : Slice Byte := none
  SessionLifetimeMs : Int64 := 0

/-- message/messages.gen.go:9627-9636 `SaslAuthenticateResponse.Size` -/
def SaslAuthenticateResponse.size (version : Int16) (t : SaslAuthenticateResponse) : Int32 :=
   (Sizeof.add Sizeof.int16 ;;
    Sizeof.add (Sizeof.string t.ErrorMessage) ;;
    Sizeof.add (Sizeof.bytes t.AuthBytes) ;;
    onlyIf (version ≥ 1) (Sizeof.add Sizeof.int64)) 0

/-- message/messages.gen.go:9639-9646 `SaslAuthenticateResponse.Encode` -/
def SaslAuthenticateResponse.encode (version : Int16) (t : SaslAuthenticateResponse) : Encoder → Encoder :=
    (·.putInt16 t.ErrorCode) ;;
    (·.putString t.ErrorMessage) ;;
    (·.putBytes t.AuthBytes) ;;
    onlyIf (version ≥ 1) (·.putInt64 t.SessionLifetimeMs)

/-- message/messages.gen.go:9649-9670 `SaslAuthenticateResponse.Decode`; the second argument is the receiver. -/
def SaslAuthenticateResponse.decode (version : Int16) : SaslAuthenticateResponse → Dec SaslAuthenticateResponse :=
    Dec.field Dec.int16 (fun t x => { t with ErrorCode := x }) ;>
    Dec.field Dec.string (fun t x => { t with ErrorMessage := x }) ;>
    Dec.field Dec.bytes (fun t x => { t with AuthBytes := x }) ;>
    Dec.onlyIf (version ≥ 1) (Dec.field Dec.int64 (fun t x => { t with SessionLifetimeMs := x }))

/-- The type `SaslAuthenticateResponse` with its methods. -/
def SaslAuthenticateResponse.type : MsgType :=
  { name := "SaslAuthenticateResponse", T := SaslAuthenticateResponse, zero := {}, size := SaslAuthenticateResponse.size, encode := SaslAuthenticateResponse.encode,
    decode := SaslAuthenticateResponse.decode }

end Kafka.Msg
