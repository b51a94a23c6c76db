import Verif.Message.Layout
import Verif.Gen.Model.DescribeAcls
/-!
Generated by tools/gen_messages.py: specification of the DescribeAcls messages.
-/
namespace Kafka.Msg

/-- Wire format of `DescribeAclsRequest`. -/
def DescribeAclsRequest.wire (version : Int16) (t : DescribeAclsRequest) : List Byte :=
  Wire.int8 t.ResourceType ++
  Wire.string t.ResourceNameFilter ++
  Wire.when (version ≥ 1) (Wire.int8 t.ResourcePatternType) ++
  Wire.string t.PrincipalFilter ++
  Wire.string t.HostFilter ++
  Wire.int8 t.Operation ++
  Wire.int8 t.PermissionType

/-- Lengths are representable. -/
structure DescribeAclsRequest.Fits (version : Int16) (t : DescribeAclsRequest) : Prop where
  ResourceNameFilter : FitsString t.ResourceNameFilter
  PrincipalFilter : FitsString t.PrincipalFilter
  HostFilter : FitsString t.HostFilter

/-- The value after `t` has been decoded into `t0`. -/
def DescribeAclsRequest.seen (version : Int16) (t t0 : DescribeAclsRequest) : DescribeAclsRequest :=
  { ResourceType := t.ResourceType,
    ResourceNameFilter := t.ResourceNameFilter,
    ResourcePatternType := if version ≥ 1 then t.ResourcePatternType else t0.ResourcePatternType,
    PrincipalFilter := t.PrincipalFilter,
    HostFilter := t.HostFilter,
    Operation := t.Operation,
    PermissionType := t.PermissionType }

/-- Nothing in `t` is lost at this version. -/
structure DescribeAclsRequest.Canon (version : Int16) (t : DescribeAclsRequest) : Prop where
  ResourcePatternType : ¬(version ≥ 1) → t.ResourcePatternType = 0

/-- The specification of `DescribeAclsRequest`. -/
def DescribeAclsRequest.layout : Layout DescribeAclsRequest.type :=
  { wire := DescribeAclsRequest.wire, Fits := DescribeAclsRequest.Fits, seen := DescribeAclsRequest.seen, Canon := DescribeAclsRequest.Canon }

/-- Wire format of `AclDescription29`. -/
def AclDescription29.wire (_version : Int16) (t : AclDescription29) : List Byte :=
  Wire.string t.Principal ++
  Wire.string t.Host ++
  Wire.int8 t.Operation ++
  Wire.int8 t.PermissionType

/-- Lengths are representable. -/
structure AclDescription29.Fits (version : Int16) (t : AclDescription29) : Prop where
  Principal : FitsString t.Principal
  Host : FitsString t.Host

/-- The value after `t` has been decoded into `t0`. -/
def AclDescription29.seen (_version : Int16) (t _t0 : AclDescription29) : AclDescription29 :=
  { Principal := t.Principal,
    Host := t.Host,
    Operation := t.Operation,
    PermissionType := t.PermissionType }

/-- Nothing can be lost. -/
def AclDescription29.Canon (_version : Int16) (_t : AclDescription29) : Prop := True

/-- The specification of `AclDescription29`. -/
def AclDescription29.layout : Layout AclDescription29.type :=
  { wire := AclDescription29.wire, Fits := AclDescription29.Fits, seen := AclDescription29.seen, Canon := AclDescription29.Canon }

/-- Wire format of `DescribeAclsResource29`. -/
def DescribeAclsResource29.wire (version : Int16) (t : DescribeAclsResource29) : List Byte :=
  Wire.int8 t.«Type» ++
  Wire.string t.Name ++
  Wire.when (version ≥ 1) (Wire.int8 t.PatternType) ++
  Wire.array (AclDescription29.wire version) t.Acls

/-- Lengths are representable. -/
structure DescribeAclsResource29.Fits (version : Int16) (t : DescribeAclsResource29) : Prop where
  Name : FitsString t.Name
  Acls : FitsAll (AclDescription29.Fits version) t.Acls

/-- The value after `t` has been decoded into `t0`. -/
def DescribeAclsResource29.seen (version : Int16) (t t0 : DescribeAclsResource29) : DescribeAclsResource29 :=
  { «Type» := t.«Type»,
    Name := t.Name,
    PatternType := if version ≥ 1 then t.PatternType else t0.PatternType,
    Acls := some (t.Acls.elems.map fun x => x.seen version {}) }

/-- Nothing in `t` is lost at this version. -/
structure DescribeAclsResource29.Canon (version : Int16) (t : DescribeAclsResource29) : Prop where
  PatternType : ¬(version ≥ 1) → t.PatternType = 0
  Acls : CanonAll (AclDescription29.Canon version) t.Acls

/-- The specification of `DescribeAclsResource29`. -/
def DescribeAclsResource29.layout : Layout DescribeAclsResource29.type :=
  { wire := DescribeAclsResource29.wire, Fits := DescribeAclsResource29.Fits, seen := DescribeAclsResource29.seen, Canon := DescribeAclsResource29.Canon }

/-- Wire format of `DescribeAclsResponse`. -/
def DescribeAclsResponse.wire (version : Int16) (t : DescribeAclsResponse) : List Byte :=
  Wire.int32 t.ThrottleTimeMs ++
  Wire.int16 t.ErrorCode ++
  Wire.string t.ErrorMessage ++
  Wire.array (DescribeAclsResource29.wire version) t.Resources

/-- Lengths are representable. -/
structure DescribeAclsResponse.Fits (version : Int16) (t : DescribeAclsResponse) : Prop where
  ErrorMessage : FitsString t.ErrorMessage
  Resources : FitsAll (DescribeAclsResource29.Fits version) t.Resources

/-- The value after `t` has been decoded into `t0`. -/
def DescribeAclsResponse.seen (version : Int16) (t _t0 : DescribeAclsResponse) : DescribeAclsResponse :=
  { ThrottleTimeMs := t.ThrottleTimeMs,
    ErrorCode := t.ErrorCode,
    ErrorMessage := t.ErrorMessage,
    Resources := some (t.Resources.elems.map fun x => x.seen version {}) }

/-- Nothing in `t` is lost at this version. -/
structure DescribeAclsResponse.Canon (version : Int16) (t : DescribeAclsResponse) : Prop where
  Resources : CanonAll (DescribeAclsResource29.Canon version) t.Resources

/-- The specification of `DescribeAclsResponse`. -/
def DescribeAclsResponse.layout : Layout DescribeAclsResponse.type :=
  { wire := DescribeAclsResponse.wire, Fits := DescribeAclsResponse.Fits, seen := DescribeAclsResponse.seen, Canon := DescribeAclsResponse.Canon }

end Kafka.Msg
