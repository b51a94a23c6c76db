import Verif.Message.Layout
import Verif.Gen.Model.DescribeGroups
/-!
Generated by tools/gen_messages.py: specification of the DescribeGroups messages.
-/
namespace Kafka.Msg

/-- Wire format of `DescribeGroupsRequest`. -/
def DescribeGroupsRequest.wire (version : Int16) (t : DescribeGroupsRequest) : List Byte :=
  Wire.stringArray t.Groups ++
  Wire.when (version ≥ 3) (Wire.bool t.IncludeAuthorizedOperations)

/-- Lengths are representable. -/
structure DescribeGroupsRequest.Fits (version : Int16) (t : DescribeGroupsRequest) : Prop where
  Groups : FitsStrings t.Groups

/-- The value after `t` has been decoded into `t0`. -/
def DescribeGroupsRequest.seen (version : Int16) (t t0 : DescribeGroupsRequest) : DescribeGroupsRequest :=
  { Groups := t.Groups,
    IncludeAuthorizedOperations := if version ≥ 3 then t.IncludeAuthorizedOperations else t0.IncludeAuthorizedOperations }

/-- Nothing in `t` is lost at this version. -/
structure DescribeGroupsRequest.Canon (version : Int16) (t : DescribeGroupsRequest) : Prop where
  IncludeAuthorizedOperations : ¬(version ≥ 3) → t.IncludeAuthorizedOperations = false

/-- The specification of `DescribeGroupsRequest`. -/
def DescribeGroupsRequest.layout : Layout DescribeGroupsRequest.type :=
  { wire := DescribeGroupsRequest.wire, Fits := DescribeGroupsRequest.Fits, seen := DescribeGroupsRequest.seen, Canon := DescribeGroupsRequest.Canon }

/-- Wire format of `DescribedGroupMember15`. -/
def DescribedGroupMember15.wire (version : Int16) (t : DescribedGroupMember15) : List Byte :=
  Wire.string t.MemberId ++
  Wire.when (version ≥ 4) (Wire.string t.GroupInstanceId) ++
  Wire.string t.ClientId ++
  Wire.string t.ClientHost ++
  Wire.bytes t.MemberMetadata ++
  Wire.bytes t.MemberAssignment

/-- Lengths are representable. -/
structure DescribedGroupMember15.Fits (version : Int16) (t : DescribedGroupMember15) : Prop where
  MemberId : FitsString t.MemberId
  GroupInstanceId : version ≥ 4 → FitsString t.GroupInstanceId
  ClientId : FitsString t.ClientId
  ClientHost : FitsString t.ClientHost
  MemberMetadata : FitsSlice t.MemberMetadata
  MemberAssignment : FitsSlice t.MemberAssignment

/-- The value after `t` has been decoded into `t0`. -/
def DescribedGroupMember15.seen (version : Int16) (t t0 : DescribedGroupMember15) : DescribedGroupMember15 :=
  { MemberId := t.MemberId,
    GroupInstanceId := if version ≥ 4 then t.GroupInstanceId else t0.GroupInstanceId,
    ClientId := t.ClientId,
    ClientHost := t.ClientHost,
    MemberMetadata := t.MemberMetadata.nonNil,
    MemberAssignment := t.MemberAssignment.nonNil }

/-- Nothing in `t` is lost at this version. -/
structure DescribedGroupMember15.Canon (version : Int16) (t : DescribedGroupMember15) : Prop where
  GroupInstanceId : ¬(version ≥ 4) → t.GroupInstanceId = []
  MemberMetadata : t.MemberMetadata.NotNil
  MemberAssignment : t.MemberAssignment.NotNil

/-- The specification of `DescribedGroupMember15`. -/
def DescribedGroupMember15.layout : Layout DescribedGroupMember15.type :=
  { wire := DescribedGroupMember15.wire, Fits := DescribedGroupMember15.Fits, seen := DescribedGroupMember15.seen, Canon := DescribedGroupMember15.Canon }

/-- Wire format of `DescribedGroup15`. -/
def DescribedGroup15.wire (version : Int16) (t : DescribedGroup15) : List Byte :=
  Wire.int16 t.ErrorCode ++
  Wire.string t.GroupId ++
  Wire.string t.GroupState ++
  Wire.string t.ProtocolType ++
  Wire.string t.ProtocolData ++
  Wire.array (DescribedGroupMember15.wire version) t.Members ++
  Wire.when (version ≥ 3) (Wire.int32 t.AuthorizedOperations)

/-- Lengths are representable. -/
structure DescribedGroup15.Fits (version : Int16) (t : DescribedGroup15) : Prop where
  GroupId : FitsString t.GroupId
  GroupState : FitsString t.GroupState
  ProtocolType : FitsString t.ProtocolType
  ProtocolData : FitsString t.ProtocolData
  Members : FitsAll (DescribedGroupMember15.Fits version) t.Members

/-- The value after `t` has been decoded into `t0`. -/
def DescribedGroup15.seen (version : Int16) (t t0 : DescribedGroup15) : DescribedGroup15 :=
  { ErrorCode := t.ErrorCode,
    GroupId := t.GroupId,
    GroupState := t.GroupState,
    ProtocolType := t.ProtocolType,
    ProtocolData := t.ProtocolData,
    Members := some (t.Members.elems.map fun x => x.seen version {}),
    AuthorizedOperations := if version ≥ 3 then t.AuthorizedOperations else t0.AuthorizedOperations }

/-- Nothing in `t` is lost at this version. -/
structure DescribedGroup15.Canon (version : Int16) (t : DescribedGroup15) : Prop where
  Members : CanonAll (DescribedGroupMember15.Canon version) t.Members
  AuthorizedOperations : ¬(version ≥ 3) → t.AuthorizedOperations = 0

/-- The specification of `DescribedGroup15`. -/
def DescribedGroup15.layout : Layout DescribedGroup15.type :=
  { wire := DescribedGroup15.wire, Fits := DescribedGroup15.Fits, seen := DescribedGroup15.seen, Canon := DescribedGroup15.Canon }

/-- Wire format of `DescribeGroupsResponse`. -/
def DescribeGroupsResponse.wire (version : Int16) (t : DescribeGroupsResponse) : List Byte :=
  Wire.when (version ≥ 1) (Wire.int32 t.ThrottleTimeMs) ++
  Wire.array (DescribedGroup15.wire version) t.Groups

/-- Lengths are representable. -/
structure DescribeGroupsResponse.Fits (version : Int16) (t : DescribeGroupsResponse) : Prop where
  Groups : FitsAll (DescribedGroup15.Fits version) t.Groups

/-- The value after `t` has been decoded into `t0`. -/
def DescribeGroupsResponse.seen (version : Int16) (t t0 : DescribeGroupsResponse) : DescribeGroupsResponse :=
  { ThrottleTimeMs := if version ≥ 1 then t.ThrottleTimeMs else t0.ThrottleTimeMs,
    Groups := some (t.Groups.elems.map fun x => x.seen version {}) }

/-- Nothing in `t` is lost at this version. -/
structure DescribeGroupsResponse.Canon (version : Int16) (t : DescribeGroupsResponse) : Prop where
  ThrottleTimeMs : ¬(version ≥ 1) → t.ThrottleTimeMs = 0
  Groups : CanonAll (DescribedGroup15.Canon version) t.Groups

/-- The specification of `DescribeGroupsResponse`. -/
def DescribeGroupsResponse.layout : Layout DescribeGroupsResponse.type :=
  { wire := DescribeGroupsResponse.wire, Fits := DescribeGroupsResponse.Fits, seen := DescribeGroupsResponse.seen, Canon := DescribeGroupsResponse.Canon }

end Kafka.Msg
