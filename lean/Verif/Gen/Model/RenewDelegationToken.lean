import Verif.Message.Steps
/-!
Generated by tools/gen_messages.py from message/messages.gen.go: model of the RenewDelegationToken messages.
-/
namespace Kafka.Msg

/-- message/messages.gen.go:10072-10075 `type RenewDelegationTokenRequest struct`; the defaults are the Go zero values. -/
@[ext] structure RenewDelegationTokenRequest where
  Hmac : Slice Byte := none
  RenewPeriodMs : Int64 := 0

/-- message/messages.gen.go:10078-10083 `RenewDelegationTokenRequest.Size` -/
def RenewDelegationTokenRequest.size (_version : Int16) (t : RenewDelegationTokenRequest) : Int32 :=
   (Sizeof.add (Sizeof.bytes t.Hmac) ;;
    Sizeof.add Sizeof.int64) 0

/-- message/messages.gen.go:10086-10089 `RenewDelegationTokenRequest.Encode` -/
def RenewDelegationTokenRequest.encode (_version : Int16) (t : RenewDelegationTokenRequest) : Encoder → Encoder :=
    (·.putBytes t.Hmac) ;;
    (·.putInt64 t.RenewPeriodMs)

/-- message/messages.gen.go:10092-10103 `RenewDelegationTokenRequest.Decode`; the second argument is the receiver. -/
def RenewDelegationTokenRequest.decode (_version : Int16) : RenewDelegationTokenRequest → Dec RenewDelegationTokenRequest :=
    Dec.field Dec.bytes (fun t x => { t with Hmac := x }) ;>
    Dec.field Dec.int64 (fun t x => { t with RenewPeriodMs := x })

/-- The type `RenewDelegationTokenRequest` with its methods. -/
def RenewDelegationTokenRequest.type : MsgType :=
  { name := "RenewDelegationTokenRequest", T := RenewDelegationTokenRequest, zero := {}, size := RenewDelegationTokenRequest.size, encode := RenewDelegationTokenRequest.encode,
    decode := RenewDelegationTokenRequest.decode }

/-- message/messages.gen.go:10106-10110 `type RenewDelegationTokenResponse struct`; the defaults are the Go zero values. -/
@[ext] structure RenewDelegationTokenResponse where
  ErrorCode : Int16 := 0
  ExpiryTimestampMs : Int64 := 0
  ThrottleTimeMs : Int32 := 0

/-- message/messages.gen.go:10113-10119 `RenewDelegationTokenResponse.Size` -/
def RenewDelegationTokenResponse.size (_version : Int16) (_t : RenewDelegationTokenResponse) : Int32 :=
   (Sizeof.add Sizeof.int16 ;;
    Sizeof.add Sizeof.int64 ;;
    Sizeof.add Sizeof.int32) 0

/-- message/messages.gen.go:10122-10126 `RenewDelegationTokenResponse.Encode` -/
def RenewDelegationTokenResponse.encode (_version : Int16) (t : RenewDelegationTokenResponse) : Encoder → Encoder :=
    (·.putInt16 t.ErrorCode) ;;
    (·.putInt64 t.ExpiryTimestampMs) ;;
    (·.putInt32 t.ThrottleTimeMs)

/-- message/messages.gen.go:10129-10144 `RenewDelegationTokenResponse.Decode`; the second argument is the receiver. -/
def RenewDelegationTokenResponse.decode (_version : Int16) : RenewDelegationTokenResponse → Dec RenewDelegationTokenResponse :=
    Dec.field Dec.int16 (fun t x => { t with ErrorCode := x }) ;>
    Dec.field Dec.int64 (fun t x => { t with ExpiryTimestampMs := x }) ;>
    Dec.field Dec.int32 (fun t x => { t with ThrottleTimeMs := x })

/-- The type `RenewDelegationTokenResponse` with its methods. -/
def RenewDelegationTokenResponse.type : MsgType :=
  { name := "RenewDelegationTokenResponse", T := RenewDelegationTokenResponse, zero := {}, size := RenewDelegationTokenResponse.size, encode := RenewDelegationTokenResponse.encode,
    decode := RenewDelegationTokenResponse.decode }

end Kafka.Msg
