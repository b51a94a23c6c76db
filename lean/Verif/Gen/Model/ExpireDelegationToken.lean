import Verif.Message.Steps
/-!
Generated by tools/gen_messages.py from message/messages.gen.go: model of the ExpireDelegationToken messages.
-/
namespace Kafka.Msg

/-- message/messages.gen.go:10147-10150 `type ExpireDelegationTokenRequest struct`; the defaults are the Go zero values. -/
@[ext] structure ExpireDelegationTokenRequest where
  Hmac : Slice Byte := none
  ExpiryTimePeriodMs : Int64 := 0

/-- message/messages.gen.go:10153-10158 `ExpireDelegationTokenRequest.Size` -/
def ExpireDelegationTokenRequest.size (_version : Int16) (t : ExpireDelegationTokenRequest) : Int32 :=
   (Sizeof.add (Sizeof.bytes t.Hmac) ;;
    Sizeof.add Sizeof.int64) 0

/-- message/messages.gen.go:10161-10164 `ExpireDelegationTokenRequest.Encode` -/
def ExpireDelegationTokenRequest.encode (_version : Int16) (t : ExpireDelegationTokenRequest) : Encoder → Encoder :=
    (·.putBytes t.Hmac) ;;
    (·.putInt64 t.ExpiryTimePeriodMs)

/-- message/messages.gen.go:10167-10178 `ExpireDelegationTokenRequest.Decode`; the second argument is the receiver. -/
def ExpireDelegationTokenRequest.decode (_version : Int16) : ExpireDelegationTokenRequest → Dec ExpireDelegationTokenRequest :=
    Dec.field Dec.bytes (fun t x => { t with Hmac := x }) ;>
    Dec.field Dec.int64 (fun t x => { t with ExpiryTimePeriodMs := x })

/-- The type `ExpireDelegationTokenRequest` with its methods. -/
def ExpireDelegationTokenRequest.type : MsgType :=
  { name := "ExpireDelegationTokenRequest", T := ExpireDelegationTokenRequest, zero := {}, size := ExpireDelegationTokenRequest.size, encode := ExpireDelegationTokenRequest.encode,
    decode := ExpireDelegationTokenRequest.decode }

/-- message/messages.gen.go:10181-10185 `type ExpireDelegationTokenResponse struct`; the defaults are the Go zero values. -/
@[ext] structure ExpireDelegationTokenResponse where
  ErrorCode : Int16 := 0
  ExpiryTimestampMs : Int64 := 0
  ThrottleTimeMs : Int32 := 0

/-- message/messages.gen.go:10188-10194 `ExpireDelegationTokenResponse.Size` -/
def ExpireDelegationTokenResponse.size (_version : Int16) (_t : ExpireDelegationTokenResponse) : Int32 :=
   (Sizeof.add Sizeof.int16 ;;
    Sizeof.add Sizeof.int64 ;;
    Sizeof.add Sizeof.int32) 0

/-- message/messages.gen.go:10197-10201 `ExpireDelegationTokenResponse.Encode` -/
def ExpireDelegationTokenResponse.encode (_version : Int16) (t : ExpireDelegationTokenResponse) : Encoder → Encoder :=
    (·.putInt16 t.ErrorCode) ;;
    (·.putInt64 t.ExpiryTimestampMs) ;;
    (·.putInt32 t.ThrottleTimeMs)

/-- message/messages.gen.go:10204-10219 `ExpireDelegationTokenResponse.Decode`; the second argument is the receiver. -/
def ExpireDelegationTokenResponse.decode (_version : Int16) : ExpireDelegationTokenResponse → Dec ExpireDelegationTokenResponse :=
    Dec.field Dec.int16 (fun t x => { t with ErrorCode := x }) ;>
    Dec.field Dec.int64 (fun t x => { t with ExpiryTimestampMs := x }) ;>
    Dec.field Dec.int32 (fun t x => { t with ThrottleTimeMs := x })

/-- The type `ExpireDelegationTokenResponse` with its methods. -/
def ExpireDelegationTokenResponse.type : MsgType :=
  { name := "ExpireDelegationTokenResponse", T := ExpireDelegationTokenResponse, zero := {}, size := ExpireDelegationTokenResponse.size, encode := ExpireDelegationTokenResponse.encode,
    decode := ExpireDelegationTokenResponse.decode }

end Kafka.Msg
