import Verif.Message.Steps
/-!
Generated by tools/gen_messages.py from message/messages.gen.go: model of the CreateDelegationToken messages.
-/
namespace Kafka.Msg

/-- message/messages.gen.go:9955-9958 `type CreatableRenewers38 struct`; the defaults are the Go zero values. -/
@[ext] structure CreatableRenewers38 where
  PrincipalType : GoString := []
  PrincipalName : GoString := []

/-- message/messages.gen.go:9961-9966 `CreatableRenewers38.Size` -/
def CreatableRenewers38.size (_version : Int16) (t : CreatableRenewers38) : Int32 :=
   (Sizeof.add (Sizeof.string t.PrincipalType) ;;
    Sizeof.add (Sizeof.string t.PrincipalName)) 0

/-- message/messages.gen.go:9969-9972 `CreatableRenewers38.Encode` -/
def CreatableRenewers38.encode (_version : Int16) (t : CreatableRenewers38) : Encoder → Encoder :=
    (·.putString t.PrincipalType) ;;
    (·.putString t.PrincipalName)

/-- message/messages.gen.go:9975-9986 `CreatableRenewers38.Decode`; the second argument is the receiver. -/
def CreatableRenewers38.decode (_version : Int16) : CreatableRenewers38 → Dec CreatableRenewers38 :=
    Dec.field Dec.string (fun t x => { t with PrincipalType := x }) ;>
    Dec.field Dec.string (fun t x => { t with PrincipalName := x })

/-- The type `CreatableRenewers38` with its methods. -/
def CreatableRenewers38.type : MsgType :=
  { name := "CreatableRenewers38", T := CreatableRenewers38, zero := {}, size := CreatableRenewers38.size, encode := CreatableRenewers38.encode,
    decode := CreatableRenewers38.decode }

/-- message/messages.gen.go:9905-9908 `type CreateDelegationTokenRequest struct`; the defaults are the Go zero values. -/
@[ext] structure CreateDelegationTokenRequest where
  Renewers : Slice CreatableRenewers38 := none
  MaxLifetimeMs : Int64 := 0

/-- message/messages.gen.go:9911-9919 `CreateDelegationTokenRequest.Size` -/
def CreateDelegationTokenRequest.size (version : Int16) (t : CreateDelegationTokenRequest) : Int32 :=
   (Sizeof.structs (CreatableRenewers38.size version) t.Renewers ;;
    Sizeof.add Sizeof.int64) 0

/-- message/messages.gen.go:9922-9930 `CreateDelegationTokenRequest.Encode` -/
def CreateDelegationTokenRequest.encode (version : Int16) (t : CreateDelegationTokenRequest) : Encoder → Encoder :=
    Encoder.putStructs (CreatableRenewers38.encode version) t.Renewers ;;
    (·.putInt64 t.MaxLifetimeMs)

/-- message/messages.gen.go:9933-9953 `CreateDelegationTokenRequest.Decode`; the second argument is the receiver. -/
def CreateDelegationTokenRequest.decode (version : Int16) : CreateDelegationTokenRequest → Dec CreateDelegationTokenRequest :=
    Dec.fieldStructs (CreatableRenewers38.decode version {}) (·.Renewers) (fun t x => { t with Renewers := x }) ;>
    Dec.field Dec.int64 (fun t x => { t with MaxLifetimeMs := x })

/-- The type `CreateDelegationTokenRequest` with its methods. -/
def CreateDelegationTokenRequest.type : MsgType :=
  { name := "CreateDelegationTokenRequest", T := CreateDelegationTokenRequest, zero := {}, size := CreateDelegationTokenRequest.size, encode := CreateDelegationTokenRequest.encode,
    decode := CreateDelegationTokenRequest.decode }

/-- message/messages.gen.go:9989-9999 `type CreateDelegationTokenResponse struct`; the defaults are the Go zero values. -/
@[ext] structure CreateDelegationTokenResponse where
  ErrorCode : Int16 := 0
  PrincipalType : GoString := []
  PrincipalName : GoString := []
  IssueTimestampMs : Int64 := 0
  ExpiryTimestampMs : Int64 := 0
  MaxTimestampMs : Int64 := 0
  TokenId : GoString := []
  Hmac : Slice Byte := none
  ThrottleTimeMs : Int32 := 0

/-- message/messages.gen.go:10002-10014 `CreateDelegationTokenResponse.Size` -/
def CreateDelegationTokenResponse.size (_version : Int16) (t : CreateDelegationTokenResponse) : Int32 :=
   (Sizeof.add Sizeof.int16 ;;
    Sizeof.add (Sizeof.string t.PrincipalType) ;;
    Sizeof.add (Sizeof.string t.PrincipalName) ;;
    Sizeof.add Sizeof.int64 ;;
    Sizeof.add Sizeof.int64 ;;
    Sizeof.add Sizeof.int64 ;;
    Sizeof.add (Sizeof.string t.TokenId) ;;
    Sizeof.add (Sizeof.bytes t.Hmac) ;;
    Sizeof.add Sizeof.int32) 0

/-- message/messages.gen.go:10017-10027 `CreateDelegationTokenResponse.Encode` -/
def CreateDelegationTokenResponse.encode (_version : Int16) (t : CreateDelegationTokenResponse) : Encoder → Encoder :=
    (·.putInt16 t.ErrorCode) ;;
    (·.putString t.PrincipalType) ;;
    (·.putString t.PrincipalName) ;;
    (·.putInt64 t.IssueTimestampMs) ;;
    (·.putInt64 t.ExpiryTimestampMs) ;;
    (·.putInt64 t.MaxTimestampMs) ;;
    (·.putString t.TokenId) ;;
    (·.putBytes t.Hmac) ;;
    (·.putInt32 t.ThrottleTimeMs)

/-- message/messages.gen.go:10030-10069 `CreateDelegationTokenResponse.Decode`; the second argument is the receiver. -/
def CreateDelegationTokenResponse.decode (_version : Int16) : CreateDelegationTokenResponse → Dec CreateDelegationTokenResponse :=
    Dec.field Dec.int16 (fun t x => { t with ErrorCode := x }) ;>
    Dec.field Dec.string (fun t x => { t with PrincipalType := x }) ;>
    Dec.field Dec.string (fun t x => { t with PrincipalName := x }) ;>
    Dec.field Dec.int64 (fun t x => { t with IssueTimestampMs := x }) ;>
    Dec.field Dec.int64 (fun t x => { t with ExpiryTimestampMs := x }) ;>
    Dec.field Dec.int64 (fun t x => { t with MaxTimestampMs := x }) ;>
    Dec.field Dec.string (fun t x => { t with TokenId := x }) ;>
    Dec.field Dec.bytes (fun t x => { t with Hmac := x }) ;>
    Dec.field Dec.int32 (fun t x => { t with ThrottleTimeMs := x })

/-- The type `CreateDelegationTokenResponse` with its methods. -/
def CreateDelegationTokenResponse.type : MsgType :=
  { name := "CreateDelegationTokenResponse", T := CreateDelegationTokenResponse, zero := {}, size := CreateDelegationTokenResponse.size, encode := CreateDelegationTokenResponse.encode,
    decode := CreateDelegationTokenResponse.decode }

end Kafka.Msg
