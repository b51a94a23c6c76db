import Verif.Message.Layout
import Verif.Gen.Model.CreateDelegationToken
/-!
Generated by tools/gen_messages.py: specification of the CreateDelegationToken messages.
-/
namespace Kafka.Msg

/-- Wire format of `CreatableRenewers38`. -/
def CreatableRenewers38.wire (_version : Int16) (t : CreatableRenewers38) : List Byte :=
  Wire.string t.PrincipalType ++
  Wire.string t.PrincipalName

/-- Lengths are representable. -/
structure CreatableRenewers38.Fits (version : Int16) (t : CreatableRenewers38) : Prop where
  PrincipalType : FitsString t.PrincipalType
  PrincipalName : FitsString t.PrincipalName

/-- The value after `t` has been decoded into `t0`. -/
def CreatableRenewers38.seen (_version : Int16) (t _t0 : CreatableRenewers38) : CreatableRenewers38 :=
  { PrincipalType := t.PrincipalType,
    PrincipalName := t.PrincipalName }

/-- Nothing can be lost. -/
def CreatableRenewers38.Canon (_version : Int16) (_t : CreatableRenewers38) : Prop := True

/-- The specification of `CreatableRenewers38`. -/
def CreatableRenewers38.layout : Layout CreatableRenewers38.type :=
  { wire := CreatableRenewers38.wire, Fits := CreatableRenewers38.Fits, seen := CreatableRenewers38.seen, Canon := CreatableRenewers38.Canon }

/-- Wire format of `CreateDelegationTokenRequest`. -/
def CreateDelegationTokenRequest.wire (version : Int16) (t : CreateDelegationTokenRequest) : List Byte :=
  Wire.array (CreatableRenewers38.wire version) t.Renewers ++
  Wire.int64 t.MaxLifetimeMs

/-- Lengths are representable. -/
structure CreateDelegationTokenRequest.Fits (version : Int16) (t : CreateDelegationTokenRequest) : Prop where
  Renewers : FitsAll (CreatableRenewers38.Fits version) t.Renewers

/-- The value after `t` has been decoded into `t0`. -/
def CreateDelegationTokenRequest.seen (version : Int16) (t _t0 : CreateDelegationTokenRequest) : CreateDelegationTokenRequest :=
  { Renewers := some (t.Renewers.elems.map fun x => x.seen version {}),
    MaxLifetimeMs := t.MaxLifetimeMs }

/-- Nothing in `t` is lost at this version. -/
structure CreateDelegationTokenRequest.Canon (version : Int16) (t : CreateDelegationTokenRequest) : Prop where
  Renewers : CanonAll (CreatableRenewers38.Canon version) t.Renewers

/-- The specification of `CreateDelegationTokenRequest`. -/
def CreateDelegationTokenRequest.layout : Layout CreateDelegationTokenRequest.type :=
  { wire := CreateDelegationTokenRequest.wire, Fits := CreateDelegationTokenRequest.Fits, seen := CreateDelegationTokenRequest.seen, Canon := CreateDelegationTokenRequest.Canon }

/-- Wire format of `CreateDelegationTokenResponse`. -/
def CreateDelegationTokenResponse.wire (_version : Int16) (t : CreateDelegationTokenResponse) : List Byte :=
  Wire.int16 t.ErrorCode ++
  Wire.string t.PrincipalType ++
  Wire.string t.PrincipalName ++
  Wire.int64 t.IssueTimestampMs ++
  Wire.int64 t.ExpiryTimestampMs ++
  Wire.int64 t.MaxTimestampMs ++
  Wire.string t.TokenId ++
  Wire.bytes t.Hmac ++
  Wire.int32 t.ThrottleTimeMs

/-- Lengths are representable. -/
structure CreateDelegationTokenResponse.Fits (version : Int16) (t : CreateDelegationTokenResponse) : Prop where
  PrincipalType : FitsString t.PrincipalType
  PrincipalName : FitsString t.PrincipalName
  TokenId : FitsString t.TokenId
  Hmac : FitsSlice t.Hmac

/-- The value after `t` has been decoded into `t0`. -/
def CreateDelegationTokenResponse.seen (_version : Int16) (t _t0 : CreateDelegationTokenResponse) : CreateDelegationTokenResponse :=
  { ErrorCode := t.ErrorCode,
    PrincipalType := t.PrincipalType,
    PrincipalName := t.PrincipalName,
    IssueTimestampMs := t.IssueTimestampMs,
    ExpiryTimestampMs := t.ExpiryTimestampMs,
    MaxTimestampMs := t.MaxTimestampMs,
    TokenId := t.TokenId,
    Hmac := t.Hmac.nonNil,
    ThrottleTimeMs := t.ThrottleTimeMs }

/-- Nothing in `t` is lost at this version. -/
structure CreateDelegationTokenResponse.Canon (version : Int16) (t : CreateDelegationTokenResponse) : Prop where
  Hmac : t.Hmac.NotNil

/-- The specification of `CreateDelegationTokenResponse`. -/
def CreateDelegationTokenResponse.layout : Layout CreateDelegationTokenResponse.type :=
  { wire := CreateDelegationTokenResponse.wire, Fits := CreateDelegationTokenResponse.Fits, seen := CreateDelegationTokenResponse.seen, Canon := CreateDelegationTokenResponse.Canon }

end Kafka.Msg
