import Verif.Message.Layout
import Verif.Gen.Model.DescribeDelegationToken
/-!
Generated by tools/gen_messages.py: specification of the DescribeDelegationToken messages.
-/
namespace Kafka.Msg

/-- Wire format of `DescribeDelegationTokenOwner41`. -/
def DescribeDelegationTokenOwner41.wire (_version : Int16) (t : DescribeDelegationTokenOwner41) : List Byte :=
  Wire.string t.PrincipalType ++
  Wire.string t.PrincipalName

/-- Lengths are representable. -/
structure DescribeDelegationTokenOwner41.Fits (version : Int16) (t : DescribeDelegationTokenOwner41) : Prop where
  PrincipalType : FitsString t.PrincipalType
  PrincipalName : FitsString t.PrincipalName

/-- The value after `t` has been decoded into `t0`. -/
def DescribeDelegationTokenOwner41.seen (_version : Int16) (t _t0 : DescribeDelegationTokenOwner41) : DescribeDelegationTokenOwner41 :=
  { PrincipalType := t.PrincipalType,
    PrincipalName := t.PrincipalName }

/-- Nothing can be lost. -/
def DescribeDelegationTokenOwner41.Canon (_version : Int16) (_t : DescribeDelegationTokenOwner41) : Prop := True

/-- The specification of `DescribeDelegationTokenOwner41`. -/
def DescribeDelegationTokenOwner41.layout : Layout DescribeDelegationTokenOwner41.type :=
  { wire := DescribeDelegationTokenOwner41.wire, Fits := DescribeDelegationTokenOwner41.Fits, seen := DescribeDelegationTokenOwner41.seen, Canon := DescribeDelegationTokenOwner41.Canon }

/-- Wire format of `DescribeDelegationTokenRequest`. -/
def DescribeDelegationTokenRequest.wire (version : Int16) (t : DescribeDelegationTokenRequest) : List Byte :=
  Wire.array (DescribeDelegationTokenOwner41.wire version) t.Owners

/-- Lengths are representable. -/
structure DescribeDelegationTokenRequest.Fits (version : Int16) (t : DescribeDelegationTokenRequest) : Prop where
  Owners : FitsAll (DescribeDelegationTokenOwner41.Fits version) t.Owners

/-- The value after `t` has been decoded into `t0`. -/
def DescribeDelegationTokenRequest.seen (version : Int16) (t _t0 : DescribeDelegationTokenRequest) : DescribeDelegationTokenRequest :=
  { Owners := some (t.Owners.elems.map fun x => x.seen version {}) }

/-- Nothing in `t` is lost at this version. -/
structure DescribeDelegationTokenRequest.Canon (version : Int16) (t : DescribeDelegationTokenRequest) : Prop where
  Owners : CanonAll (DescribeDelegationTokenOwner41.Canon version) t.Owners

/-- The specification of `DescribeDelegationTokenRequest`. -/
def DescribeDelegationTokenRequest.layout : Layout DescribeDelegationTokenRequest.type :=
  { wire := DescribeDelegationTokenRequest.wire, Fits := DescribeDelegationTokenRequest.Fits, seen := DescribeDelegationTokenRequest.seen, Canon := DescribeDelegationTokenRequest.Canon }

/-- Wire format of `DescribedDelegationTokenRenewer41`. -/
def DescribedDelegationTokenRenewer41.wire (_version : Int16) (t : DescribedDelegationTokenRenewer41) : List Byte :=
  Wire.string t.PrincipalType ++
  Wire.string t.PrincipalName

/-- Lengths are representable. -/
structure DescribedDelegationTokenRenewer41.Fits (version : Int16) (t : DescribedDelegationTokenRenewer41) : Prop where
  PrincipalType : FitsString t.PrincipalType
  PrincipalName : FitsString t.PrincipalName

/-- The value after `t` has been decoded into `t0`. -/
def DescribedDelegationTokenRenewer41.seen (_version : Int16) (t _t0 : DescribedDelegationTokenRenewer41) : DescribedDelegationTokenRenewer41 :=
  { PrincipalType := t.PrincipalType,
    PrincipalName := t.PrincipalName }

/-- Nothing can be lost. -/
def DescribedDelegationTokenRenewer41.Canon (_version : Int16) (_t : DescribedDelegationTokenRenewer41) : Prop := True

/-- The specification of `DescribedDelegationTokenRenewer41`. -/
def DescribedDelegationTokenRenewer41.layout : Layout DescribedDelegationTokenRenewer41.type :=
  { wire := DescribedDelegationTokenRenewer41.wire, Fits := DescribedDelegationTokenRenewer41.Fits, seen := DescribedDelegationTokenRenewer41.seen, Canon := DescribedDelegationTokenRenewer41.Canon }

/-- Wire format of `DescribedDelegationToken41`. -/
def DescribedDelegationToken41.wire (version : Int16) (t : DescribedDelegationToken41) : List Byte :=
  Wire.string t.PrincipalType ++
  Wire.string t.PrincipalName ++
  Wire.int64 t.IssueTimestamp ++
  Wire.int64 t.ExpiryTimestamp ++
  Wire.int64 t.MaxTimestamp ++
  Wire.string t.TokenId ++
  Wire.bytes t.Hmac ++
  Wire.array (DescribedDelegationTokenRenewer41.wire version) t.Renewers

/-- Lengths are representable. -/
structure DescribedDelegationToken41.Fits (version : Int16) (t : DescribedDelegationToken41) : Prop where
  PrincipalType : FitsString t.PrincipalType
  PrincipalName : FitsString t.PrincipalName
  TokenId : FitsString t.TokenId
  Hmac : FitsSlice t.Hmac
  Renewers : FitsAll (DescribedDelegationTokenRenewer41.Fits version) t.Renewers

/-- The value after `t` has been decoded into `t0`. -/
def DescribedDelegationToken41.seen (version : Int16) (t _t0 : DescribedDelegationToken41) : DescribedDelegationToken41 :=
  { PrincipalType := t.PrincipalType,
    PrincipalName := t.PrincipalName,
    IssueTimestamp := t.IssueTimestamp,
    ExpiryTimestamp := t.ExpiryTimestamp,
    MaxTimestamp := t.MaxTimestamp,
    TokenId := t.TokenId,
    Hmac := t.Hmac.nonNil,
    Renewers := some (t.Renewers.elems.map fun x => x.seen version {}) }

/-- Nothing in `t` is lost at this version. -/
structure DescribedDelegationToken41.Canon (version : Int16) (t : DescribedDelegationToken41) : Prop where
  Hmac : t.Hmac.NotNil
  Renewers : CanonAll (DescribedDelegationTokenRenewer41.Canon version) t.Renewers

/-- The specification of `DescribedDelegationToken41`. -/
def DescribedDelegationToken41.layout : Layout DescribedDelegationToken41.type :=
  { wire := DescribedDelegationToken41.wire, Fits := DescribedDelegationToken41.Fits, seen := DescribedDelegationToken41.seen, Canon := DescribedDelegationToken41.Canon }

/-- Wire format of `DescribeDelegationTokenResponse`. -/
def DescribeDelegationTokenResponse.wire (version : Int16) (t : DescribeDelegationTokenResponse) : List Byte :=
  Wire.int16 t.ErrorCode ++
  Wire.array (DescribedDelegationToken41.wire version) t.Tokens ++
  Wire.int32 t.ThrottleTimeMs

/-- Lengths are representable. -/
structure DescribeDelegationTokenResponse.Fits (version : Int16) (t : DescribeDelegationTokenResponse) : Prop where
  Tokens : FitsAll (DescribedDelegationToken41.Fits version) t.Tokens

/-- The value after `t` has been decoded into `t0`. -/
def DescribeDelegationTokenResponse.seen (version : Int16) (t _t0 : DescribeDelegationTokenResponse) : DescribeDelegationTokenResponse :=
  { ErrorCode := t.ErrorCode,
    Tokens := some (t.Tokens.elems.map fun x => x.seen version {}),
    ThrottleTimeMs := t.ThrottleTimeMs }

/-- Nothing in `t` is lost at this version. -/
structure DescribeDelegationTokenResponse.Canon (version : Int16) (t : DescribeDelegationTokenResponse) : Prop where
  Tokens : CanonAll (DescribedDelegationToken41.Canon version) t.Tokens

/-- The specification of `DescribeDelegationTokenResponse`. -/
def DescribeDelegationTokenResponse.layout : Layout DescribeDelegationTokenResponse.type :=
  { wire := DescribeDelegationTokenResponse.wire, Fits := DescribeDelegationTokenResponse.Fits, seen := DescribeDelegationTokenResponse.seen, Canon := DescribeDelegationTokenResponse.Canon }

end Kafka.Msg
