import Verif.Message.Layout
import Verif.Gen.Model.CreateAcls
/-!
Generated by tools/gen_messages.py: specification of the CreateAcls messages.
-/
namespace Kafka.Msg

/-- Wire format of `CreatableAcl30`. -/
def CreatableAcl30.wire (version : Int16) (t : CreatableAcl30) : List Byte :=
  Wire.int8 t.ResourceType ++
  Wire.string t.ResourceName ++
  Wire.when (version ≥ 1) (Wire.int8 t.ResourcePatternType) ++
  Wire.string t.Principal ++
  Wire.string t.Host ++
  Wire.int8 t.Operation ++
  Wire.int8 t.PermissionType

/-- Lengths are representable. -/
structure CreatableAcl30.Fits (version : Int16) (t : CreatableAcl30) : Prop where
  ResourceName : FitsString t.ResourceName
  Principal : FitsString t.Principal
  Host : FitsString t.Host

/-- The value after `t` has been decoded into `t0`. -/
def CreatableAcl30.seen (version : Int16) (t t0 : CreatableAcl30) : CreatableAcl30 :=
  { ResourceType := t.ResourceType,
    ResourceName := t.ResourceName,
    ResourcePatternType := if version ≥ 1 then t.ResourcePatternType else t0.ResourcePatternType,
    Principal := t.Principal,
    Host := t.Host,
    Operation := t.Operation,
    PermissionType := t.PermissionType }

/-- Nothing in `t` is lost at this version. -/
structure CreatableAcl30.Canon (version : Int16) (t : CreatableAcl30) : Prop where
  ResourcePatternType : ¬(version ≥ 1) → t.ResourcePatternType = 0

/-- The specification of `CreatableAcl30`. -/
def CreatableAcl30.layout : Layout CreatableAcl30.type :=
  { wire := CreatableAcl30.wire, Fits := CreatableAcl30.Fits, seen := CreatableAcl30.seen, Canon := CreatableAcl30.Canon }

/-- Wire format of `CreateAclsRequest`. -/
def CreateAclsRequest.wire (version : Int16) (t : CreateAclsRequest) : List Byte :=
  Wire.array (CreatableAcl30.wire version) t.Creations

/-- Lengths are representable. -/
structure CreateAclsRequest.Fits (version : Int16) (t : CreateAclsRequest) : Prop where
  Creations : FitsAll (CreatableAcl30.Fits version) t.Creations

/-- The value after `t` has been decoded into `t0`. -/
def CreateAclsRequest.seen (version : Int16) (t _t0 : CreateAclsRequest) : CreateAclsRequest :=
  { Creations := some (t.Creations.elems.map fun x => x.seen version {}) }

/-- Nothing in `t` is lost at this version. -/
structure CreateAclsRequest.Canon (version : Int16) (t : CreateAclsRequest) : Prop where
  Creations : CanonAll (CreatableAcl30.Canon version) t.Creations

/-- The specification of `CreateAclsRequest`. -/
def CreateAclsRequest.layout : Layout CreateAclsRequest.type :=
  { wire := CreateAclsRequest.wire, Fits := CreateAclsRequest.Fits, seen := CreateAclsRequest.seen, Canon := CreateAclsRequest.Canon }

/-- Wire format of `CreatableAclResult30`. -/
def CreatableAclResult30.wire (_version : Int16) (t : CreatableAclResult30) : List Byte :=
  Wire.int16 t.ErrorCode ++
  Wire.string t.ErrorMessage

/-- Lengths are representable. -/
structure CreatableAclResult30.Fits (version : Int16) (t : CreatableAclResult30) : Prop where
  ErrorMessage : FitsString t.ErrorMessage

/-- The value after `t` has been decoded into `t0`. -/
def CreatableAclResult30.seen (_version : Int16) (t _t0 : CreatableAclResult30) : CreatableAclResult30 :=
  { ErrorCode := t.ErrorCode,
    ErrorMessage := t.ErrorMessage }

/-- Nothing can be lost. -/
def CreatableAclResult30.Canon (_version : Int16) (_t : CreatableAclResult30) : Prop := True

/-- The specification of `CreatableAclResult30`. -/
def CreatableAclResult30.layout : Layout CreatableAclResult30.type :=
  { wire := CreatableAclResult30.wire, Fits := CreatableAclResult30.Fits, seen := CreatableAclResult30.seen, Canon := CreatableAclResult30.Canon }

/-- Wire format of `CreateAclsResponse`. -/
def CreateAclsResponse.wire (version : Int16) (t : CreateAclsResponse) : List Byte :=
  Wire.int32 t.ThrottleTimeMs ++
  Wire.array (CreatableAclResult30.wire version) t.Results

/-- Lengths are representable. -/
structure CreateAclsResponse.Fits (version : Int16) (t : CreateAclsResponse) : Prop where
  Results : FitsAll (CreatableAclResult30.Fits version) t.Results

/-- The value after `t` has been decoded into `t0`. -/
def CreateAclsResponse.seen (version : Int16) (t _t0 : CreateAclsResponse) : CreateAclsResponse :=
  { ThrottleTimeMs := t.ThrottleTimeMs,
    Results := some (t.Results.elems.map fun x => x.seen version {}) }

/-- Nothing in `t` is lost at this version. -/
structure CreateAclsResponse.Canon (version : Int16) (t : CreateAclsResponse) : Prop where
  Results : CanonAll (CreatableAclResult30.Canon version) t.Results

/-- The specification of `CreateAclsResponse`. -/
def CreateAclsResponse.layout : Layout CreateAclsResponse.type :=
  { wire := CreateAclsResponse.wire, Fits := CreateAclsResponse.Fits, seen := CreateAclsResponse.seen, Canon := CreateAclsResponse.Canon }

end Kafka.Msg
