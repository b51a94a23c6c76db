import Verif.Message.Layout
import Verif.Gen.Model.DeleteAcls
/-!
Generated by tools/gen_messages.py: specification of the DeleteAcls messages.
-/
namespace Kafka.Msg

/-- Wire format of `DeleteAclsFilter31`. -/
def DeleteAclsFilter31.wire (version : Int16) (t : DeleteAclsFilter31) : List Byte :=
  Wire.int8 t.ResourceTypeFilter ++
  Wire.string t.ResourceNameFilter ++
  Wire.when (version ≥ 1) (Wire.int8 t.PatternTypeFilter) ++
  Wire.string t.PrincipalFilter ++
  Wire.string t.HostFilter ++
  Wire.int8 t.Operation ++
  Wire.int8 t.PermissionType

/-- Lengths are representable. -/
structure DeleteAclsFilter31.Fits (version : Int16) (t : DeleteAclsFilter31) : Prop where
  ResourceNameFilter : FitsString t.ResourceNameFilter
  PrincipalFilter : FitsString t.PrincipalFilter
  HostFilter : FitsString t.HostFilter

/-- The value after `t` has been decoded into `t0`. -/
def DeleteAclsFilter31.seen (version : Int16) (t t0 : DeleteAclsFilter31) : DeleteAclsFilter31 :=
  { ResourceTypeFilter := t.ResourceTypeFilter,
    ResourceNameFilter := t.ResourceNameFilter,
    PatternTypeFilter := if version ≥ 1 then t.PatternTypeFilter else t0.PatternTypeFilter,
    PrincipalFilter := t.PrincipalFilter,
    HostFilter := t.HostFilter,
    Operation := t.Operation,
    PermissionType := t.PermissionType }

/-- Nothing in `t` is lost at this version. -/
structure DeleteAclsFilter31.Canon (version : Int16) (t : DeleteAclsFilter31) : Prop where
  PatternTypeFilter : ¬(version ≥ 1) → t.PatternTypeFilter = 0

/-- The specification of `DeleteAclsFilter31`. -/
def DeleteAclsFilter31.layout : Layout DeleteAclsFilter31.type :=
  { wire := DeleteAclsFilter31.wire, Fits := DeleteAclsFilter31.Fits, seen := DeleteAclsFilter31.seen, Canon := DeleteAclsFilter31.Canon }

/-- Wire format of `DeleteAclsRequest`. -/
def DeleteAclsRequest.wire (version : Int16) (t : DeleteAclsRequest) : List Byte :=
  Wire.array (DeleteAclsFilter31.wire version) t.Filters

/-- Lengths are representable. -/
structure DeleteAclsRequest.Fits (version : Int16) (t : DeleteAclsRequest) : Prop where
  Filters : FitsAll (DeleteAclsFilter31.Fits version) t.Filters

/-- The value after `t` has been decoded into `t0`. -/
def DeleteAclsRequest.seen (version : Int16) (t _t0 : DeleteAclsRequest) : DeleteAclsRequest :=
  { Filters := some (t.Filters.elems.map fun x => x.seen version {}) }

/-- Nothing in `t` is lost at this version. -/
structure DeleteAclsRequest.Canon (version : Int16) (t : DeleteAclsRequest) : Prop where
  Filters : CanonAll (DeleteAclsFilter31.Canon version) t.Filters

/-- The specification of `DeleteAclsRequest`. -/
def DeleteAclsRequest.layout : Layout DeleteAclsRequest.type :=
  { wire := DeleteAclsRequest.wire, Fits := DeleteAclsRequest.Fits, seen := DeleteAclsRequest.seen, Canon := DeleteAclsRequest.Canon }

/-- Wire format of `DeleteAclsMatchingAcl31`. -/
def DeleteAclsMatchingAcl31.wire (version : Int16) (t : DeleteAclsMatchingAcl31) : List Byte :=
  Wire.int16 t.ErrorCode ++
  Wire.string t.ErrorMessage ++
  Wire.int8 t.ResourceType ++
  Wire.string t.ResourceName ++
  Wire.when (version ≥ 1) (Wire.int8 t.PatternType) ++
  Wire.string t.Principal ++
  Wire.string t.Host ++
  Wire.int8 t.Operation ++
  Wire.int8 t.PermissionType

/-- Lengths are representable. -/
structure DeleteAclsMatchingAcl31.Fits (version : Int16) (t : DeleteAclsMatchingAcl31) : Prop where
  ErrorMessage : FitsString t.ErrorMessage
  ResourceName : FitsString t.ResourceName
  Principal : FitsString t.Principal
  Host : FitsString t.Host

/-- The value after `t` has been decoded into `t0`. -/
def DeleteAclsMatchingAcl31.seen (version : Int16) (t t0 : DeleteAclsMatchingAcl31) : DeleteAclsMatchingAcl31 :=
  { ErrorCode := t.ErrorCode,
    ErrorMessage := t.ErrorMessage,
    ResourceType := t.ResourceType,
    ResourceName := t.ResourceName,
    PatternType := if version ≥ 1 then t.PatternType else t0.PatternType,
    Principal := t.Principal,
    Host := t.Host,
    Operation := t.Operation,
    PermissionType := t.PermissionType }

/-- Nothing in `t` is lost at this version. -/
structure DeleteAclsMatchingAcl31.Canon (version : Int16) (t : DeleteAclsMatchingAcl31) : Prop where
  PatternType : ¬(version ≥ 1) → t.PatternType = 0

/-- The specification of `DeleteAclsMatchingAcl31`. -/
def DeleteAclsMatchingAcl31.layout : Layout DeleteAclsMatchingAcl31.type :=
  { wire := DeleteAclsMatchingAcl31.wire, Fits := DeleteAclsMatchingAcl31.Fits, seen := DeleteAclsMatchingAcl31.seen, Canon := DeleteAclsMatchingAcl31.Canon }

/-- Wire format of `DeleteAclsFilterResult31`. -/
def DeleteAclsFilterResult31.wire (version : Int16) (t : DeleteAclsFilterResult31) : List Byte :=
  Wire.int16 t.ErrorCode ++
  Wire.string t.ErrorMessage ++
  Wire.array (DeleteAclsMatchingAcl31.wire version) t.MatchingAcls

/-- Lengths are representable. -/
structure DeleteAclsFilterResult31.Fits (version : Int16) (t : DeleteAclsFilterResult31) : Prop where
  ErrorMessage : FitsString t.ErrorMessage
  MatchingAcls : FitsAll (DeleteAclsMatchingAcl31.Fits version) t.MatchingAcls

/-- The value after `t` has been decoded into `t0`. -/
def DeleteAclsFilterResult31.seen (version : Int16) (t _t0 : DeleteAclsFilterResult31) : DeleteAclsFilterResult31 :=
  { ErrorCode := t.ErrorCode,
    ErrorMessage := t.ErrorMessage,
    MatchingAcls := some (t.MatchingAcls.elems.map fun x => x.seen version {}) }

/-- Nothing in `t` is lost at this version. -/
structure DeleteAclsFilterResult31.Canon (version : Int16) (t : DeleteAclsFilterResult31) : Prop where
  MatchingAcls : CanonAll (DeleteAclsMatchingAcl31.Canon version) t.MatchingAcls

/-- The specification of `DeleteAclsFilterResult31`. -/
def DeleteAclsFilterResult31.layout : Layout DeleteAclsFilterResult31.type :=
  { wire := DeleteAclsFilterResult31.wire, Fits := DeleteAclsFilterResult31.Fits, seen := DeleteAclsFilterResult31.seen, Canon := DeleteAclsFilterResult31.Canon }

/-- Wire format of `DeleteAclsResponse`. -/
def DeleteAclsResponse.wire (version : Int16) (t : DeleteAclsResponse) : List Byte :=
  Wire.int32 t.ThrottleTimeMs ++
  Wire.array (DeleteAclsFilterResult31.wire version) t.FilterResults

/-- Lengths are representable. -/
structure DeleteAclsResponse.Fits (version : Int16) (t : DeleteAclsResponse) : Prop where
  FilterResults : FitsAll (DeleteAclsFilterResult31.Fits version) t.FilterResults

/-- The value after `t` has been decoded into `t0`. -/
def DeleteAclsResponse.seen (version : Int16) (t _t0 : DeleteAclsResponse) : DeleteAclsResponse :=
  { ThrottleTimeMs := t.ThrottleTimeMs,
    FilterResults := some (t.FilterResults.elems.map fun x => x.seen version {}) }

/-- Nothing in `t` is lost at this version. -/
structure DeleteAclsResponse.Canon (version : Int16) (t : DeleteAclsResponse) : Prop where
  FilterResults : CanonAll (DeleteAclsFilterResult31.Canon version) t.FilterResults

/-- The specification of `DeleteAclsResponse`. -/
def DeleteAclsResponse.layout : Layout DeleteAclsResponse.type :=
  { wire := DeleteAclsResponse.wire, Fits := DeleteAclsResponse.Fits, seen := DeleteAclsResponse.seen, Canon := DeleteAclsResponse.Canon }

end Kafka.Msg
