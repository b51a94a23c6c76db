import Verif.Message.Steps
/-!
Generated by tools/gen_messages.py from message/messages.gen.go: model of the DescribeDelegationToken messages.
-/
namespace Kafka.Msg

/-- message/messages.gen.go:10265-10268 `type DescribeDelegationTokenOwner41 struct`; the defaults are the Go zero values. -/
@[ext] structure DescribeDelegationTokenOwner41 where
  PrincipalType : GoString := []
  PrincipalName : GoString := []

/-- message/messages.gen.go:10271-10276 `DescribeDelegationTokenOwner41.Size` -/
def DescribeDelegationTokenOwner41.size (_version : Int16) (t : DescribeDelegationTokenOwner41) : Int32 :=
   (Sizeof.add (Sizeof.string t.PrincipalType) ;;
    Sizeof.add (Sizeof.string t.PrincipalName)) 0

/-- message/messages.gen.go:10279-10282 `DescribeDelegationTokenOwner41.Encode` -/
def DescribeDelegationTokenOwner41.encode (_version : Int16) (t : DescribeDelegationTokenOwner41) : Encoder → Encoder :=
    (·.putString t.PrincipalType) ;;
    (·.putString t.PrincipalName)

/-- message/messages.gen.go:10285-10296 `DescribeDelegationTokenOwner41.Decode`; the second argument is the receiver. -/
def DescribeDelegationTokenOwner41.decode (_version : Int16) : DescribeDelegationTokenOwner41 → Dec DescribeDelegationTokenOwner41 :=
    Dec.field Dec.string (fun t x => { t with PrincipalType := x }) ;>
    Dec.field Dec.string (fun t x => { t with PrincipalName := x })

/-- The type `DescribeDelegationTokenOwner41` with its methods. -/
def DescribeDelegationTokenOwner41.type : MsgType :=
  { name := "DescribeDelegationTokenOwner41", T := DescribeDelegationTokenOwner41, zero := {}, size := DescribeDelegationTokenOwner41.size, encode := DescribeDelegationTokenOwner41.encode,
    decode := DescribeDelegationTokenOwner41.decode }

/-- message/messages.gen.go:10222-10224 `type DescribeDelegationTokenRequest struct`; the defaults are the Go zero values. -/
@[ext] structure DescribeDelegationTokenRequest where
  Owners : Slice DescribeDelegationTokenOwner41 := none

/-- message/messages.gen.go:10227-10234 `DescribeDelegationTokenRequest.Size` -/
def DescribeDelegationTokenRequest.size (version : Int16) (t : DescribeDelegationTokenRequest) : Int32 :=
   (Sizeof.structs (DescribeDelegationTokenOwner41.size version) t.Owners) 0

/-- message/messages.gen.go:10237-10244 `DescribeDelegationTokenRequest.Encode` -/
def DescribeDelegationTokenRequest.encode (version : Int16) (t : DescribeDelegationTokenRequest) : Encoder → Encoder :=
    Encoder.putStructs (DescribeDelegationTokenOwner41.encode version) t.Owners

/-- message/messages.gen.go:10247-10263 `DescribeDelegationTokenRequest.Decode`; the second argument is the receiver. -/
def DescribeDelegationTokenRequest.decode (version : Int16) : DescribeDelegationTokenRequest → Dec DescribeDelegationTokenRequest :=
    Dec.fieldStructs (DescribeDelegationTokenOwner41.decode version {}) (·.Owners) (fun t x => { t with Owners := x })

/-- The type `DescribeDelegationTokenRequest` with its methods. -/
def DescribeDelegationTokenRequest.type : MsgType :=
  { name := "DescribeDelegationTokenRequest", T := DescribeDelegationTokenRequest, zero := {}, size := DescribeDelegationTokenRequest.size, encode := DescribeDelegationTokenRequest.encode,
    decode := DescribeDelegationTokenRequest.decode }

/-- message/messages.gen.go:10448-10451 `type DescribedDelegationTokenRenewer41 struct`; the defaults are the Go zero values. -/
@[ext] structure DescribedDelegationTokenRenewer41 where
  PrincipalType : GoString := []
  PrincipalName : GoString := []

/-- message/messages.gen.go:10454-10459 `DescribedDelegationTokenRenewer41.Size` -/
def DescribedDelegationTokenRenewer41.size (_version : Int16) (t : DescribedDelegationTokenRenewer41) : Int32 :=
   (Sizeof.add (Sizeof.string t.PrincipalType) ;;
    Sizeof.add (Sizeof.string t.PrincipalName)) 0

/-- message/messages.gen.go:10462-10465 `DescribedDelegationTokenRenewer41.Encode` -/
def DescribedDelegationTokenRenewer41.encode (_version : Int16) (t : DescribedDelegationTokenRenewer41) : Encoder → Encoder :=
    (·.putString t.PrincipalType) ;;
    (·.putString t.PrincipalName)

/-- message/messages.gen.go:10468-10479 `DescribedDelegationTokenRenewer41.Decode`; the second argument is the receiver. -/
def DescribedDelegationTokenRenewer41.decode (_version : Int16) : DescribedDelegationTokenRenewer41 → Dec DescribedDelegationTokenRenewer41 :=
    Dec.field Dec.string (fun t x => { t with PrincipalType := x }) ;>
    Dec.field Dec.string (fun t x => { t with PrincipalName := x })

/-- The type `DescribedDelegationTokenRenewer41` with its methods. -/
def DescribedDelegationTokenRenewer41.type : MsgType :=
  { name := "DescribedDelegationTokenRenewer41", T := DescribedDelegationTokenRenewer41, zero := {}, size := DescribedDelegationTokenRenewer41.size, encode := DescribedDelegationTokenRenewer41.encode,
    decode := DescribedDelegationTokenRenewer41.decode }

/-- message/messages.gen.go:10356-10365 `type DescribedDelegationToken41 struct`; the defaults are the Go zero values. -/
@[ext] structure DescribedDelegationToken41 where
  PrincipalType : GoString := []
  PrincipalName : GoString := []
  IssueTimestamp : Int64 := 0
  ExpiryTimestamp : Int64 := 0
  MaxTimestamp : Int64 := 0
  TokenId : GoString := []
  Hmac : Slice Byte := none
  Renewers : Slice DescribedDelegationTokenRenewer41 := none

/-- message/messages.gen.go:10368-10382 `DescribedDelegationToken41.Size` -/
def DescribedDelegationToken41.size (version : Int16) (t : DescribedDelegationToken41) : Int32 :=
   (Sizeof.add (Sizeof.string t.PrincipalType) ;;
    Sizeof.add (Sizeof.string t.PrincipalName) ;;
    Sizeof.add Sizeof.int64 ;;
    Sizeof.add Sizeof.int64 ;;
    Sizeof.add Sizeof.int64 ;;
    Sizeof.add (Sizeof.string t.TokenId) ;;
    Sizeof.add (Sizeof.bytes t.Hmac) ;;
    Sizeof.structs (DescribedDelegationTokenRenewer41.size version) t.Renewers) 0

/-- message/messages.gen.go:10385-10399 `DescribedDelegationToken41.Encode` -/
def DescribedDelegationToken41.encode (version : Int16) (t : DescribedDelegationToken41) : Encoder → Encoder :=
    (·.putString t.PrincipalType) ;;
    (·.putString t.PrincipalName) ;;
    (·.putInt64 t.IssueTimestamp) ;;
    (·.putInt64 t.ExpiryTimestamp) ;;
    (·.putInt64 t.MaxTimestamp) ;;
    (·.putString t.TokenId) ;;
    (·.putBytes t.Hmac) ;;
    Encoder.putStructs (DescribedDelegationTokenRenewer41.encode version) t.Renewers

/-- message/messages.gen.go:10402-10446 `DescribedDelegationToken41.Decode`; the second argument is the receiver. -/
def DescribedDelegationToken41.decode (version : Int16) : DescribedDelegationToken41 → Dec DescribedDelegationToken41 :=
    Dec.field Dec.string (fun t x => { t with PrincipalType := x }) ;>
    Dec.field Dec.string (fun t x => { t with PrincipalName := x }) ;>
    Dec.field Dec.int64 (fun t x => { t with IssueTimestamp := x }) ;>
    Dec.field Dec.int64 (fun t x => { t with ExpiryTimestamp := x }) ;>
    Dec.field Dec.int64 (fun t x => { t with MaxTimestamp := x }) ;>
    Dec.field Dec.string (fun t x => { t with TokenId := x }) ;>
    Dec.field Dec.bytes (fun t x => { t with Hmac := x }) ;>
    Dec.fieldStructs (DescribedDelegationTokenRenewer41.decode version {}) (·.Renewers) (fun t x => { t with Renewers := x })

/-- The type `DescribedDelegationToken41` with its methods. -/
def DescribedDelegationToken41.type : MsgType :=
  { name := "DescribedDelegationToken41", T := DescribedDelegationToken41, zero := {}, size := DescribedDelegationToken41.size, encode := DescribedDelegationToken41.encode,
    decode := DescribedDelegationToken41.decode }

/-- message/messages.gen.go:10299-10303 `type DescribeDelegationTokenResponse struct`; the defaults are the Go zero values. -/
@[ext] structure DescribeDelegationTokenResponse where
  ErrorCode : Int16 := 0
  Tokens : Slice DescribedDelegationToken41 := none
  ThrottleTimeMs : Int32 := 0

/-- message/messages.gen.go:10306-10315 `DescribeDelegationTokenResponse.Size` -/
def DescribeDelegationTokenResponse.size (version : Int16) (t : DescribeDelegationTokenResponse) : Int32 :=
   (Sizeof.add Sizeof.int16 ;;
    Sizeof.structs (DescribedDelegationToken41.size version) t.Tokens ;;
    Sizeof.add Sizeof.int32) 0

/-- message/messages.gen.go:10318-10327 `DescribeDelegationTokenResponse.Encode` -/
def DescribeDelegationTokenResponse.encode (version : Int16) (t : DescribeDelegationTokenResponse) : Encoder → Encoder :=
    (·.putInt16 t.ErrorCode) ;;
    Encoder.putStructs (DescribedDelegationToken41.encode version) t.Tokens ;;
    (·.putInt32 t.ThrottleTimeMs)

/-- message/messages.gen.go:10330-10354 `DescribeDelegationTokenResponse.Decode`; the second argument is the receiver. -/
def DescribeDelegationTokenResponse.decode (version : Int16) : DescribeDelegationTokenResponse → Dec DescribeDelegationTokenResponse :=
    Dec.field Dec.int16 (fun t x => { t with ErrorCode := x }) ;>
    Dec.fieldStructs (DescribedDelegationToken41.decode version {}) (·.Tokens) (fun t x => { t with Tokens := x }) ;>
    Dec.field Dec.int32 (fun t x => { t with ThrottleTimeMs := x })

/-- The type `DescribeDelegationTokenResponse` with its methods. -/
def DescribeDelegationTokenResponse.type : MsgType :=
  { name := "DescribeDelegationTokenResponse", T := DescribeDelegationTokenResponse, zero := {}, size := DescribeDelegationTokenResponse.size, encode := DescribeDelegationTokenResponse.encode,
    decode := DescribeDelegationTokenResponse.decode }

end Kafka.Msg
