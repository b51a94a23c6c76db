import Verif.Message.Layout
import Verif.Gen.Model.ListGroups
/-!
Generated by tools/gen_messages.py: specification of the ListGroups messages.
-/
namespace Kafka.Msg

/-- Wire format of `ListGroupsRequest`. -/
def ListGroupsRequest.wire (_version : Int16) (_t : ListGroupsRequest) : List Byte :=
  []

/-- No field has a length prefix. -/
def ListGroupsRequest.Fits (_version : Int16) (_t : ListGroupsRequest) : Prop := True

/-- The value after `t` has been decoded into `t0`. -/
def ListGroupsRequest.seen (_version : Int16) (_t _t0 : ListGroupsRequest) : ListGroupsRequest :=
  {}

/-- Nothing can be lost. -/
def ListGroupsRequest.Canon (_version : Int16) (_t : ListGroupsRequest) : Prop := True

/-- The specification of `ListGroupsRequest`. -/
def ListGroupsRequest.layout : Layout ListGroupsRequest.type :=
  { wire := ListGroupsRequest.wire, Fits := ListGroupsRequest.Fits, seen := ListGroupsRequest.seen, Canon := ListGroupsRequest.Canon }

/-- Wire format of `ListedGroup16`. -/
def ListedGroup16.wire (_version : Int16) (t : ListedGroup16) : List Byte :=
  Wire.string t.GroupId ++
  Wire.string t.ProtocolType

/-- Lengths are representable. -/
structure ListedGroup16.Fits (version : Int16) (t : ListedGroup16) : Prop where
  GroupId : FitsString t.GroupId
  ProtocolType : FitsString t.ProtocolType

/-- The value after `t` has been decoded into `t0`. -/
def ListedGroup16.seen (_version : Int16) (t _t0 : ListedGroup16) : ListedGroup16 :=
  { GroupId := t.GroupId,
    ProtocolType := t.ProtocolType }

/-- Nothing can be lost. -/
def ListedGroup16.Canon (_version : Int16) (_t : ListedGroup16) : Prop := True

/-- The specification of `ListedGroup16`. -/
def ListedGroup16.layout : Layout ListedGroup16.type :=
  { wire := ListedGroup16.wire, Fits := ListedGroup16.Fits, seen := ListedGroup16.seen, Canon := ListedGroup16.Canon }

/-- Wire format of `ListGroupsResponse`. -/
def ListGroupsResponse.wire (version : Int16) (t : ListGroupsResponse) : List Byte :=
  Wire.when (version ≥ 1) (Wire.int32 t.ThrottleTimeMs) ++
  Wire.int16 t.ErrorCode ++
  Wire.array (ListedGroup16.wire version) t.Groups

/-- Lengths are representable. -/
structure ListGroupsResponse.Fits (version : Int16) (t : ListGroupsResponse) : Prop where
  Groups : FitsAll (ListedGroup16.Fits version) t.Groups

/-- The value after `t` has been decoded into `t0`. -/
def ListGroupsResponse.seen (version : Int16) (t t0 : ListGroupsResponse) : ListGroupsResponse :=
  { ThrottleTimeMs := if version ≥ 1 then t.ThrottleTimeMs else t0.ThrottleTimeMs,
    ErrorCode := t.ErrorCode,
    Groups := some (t.Groups.elems.map fun x => x.seen version {}) }

/-- Nothing in `t` is lost at this version. -/
structure ListGroupsResponse.Canon (version : Int16) (t : ListGroupsResponse) : Prop where
  ThrottleTimeMs : ¬(version ≥ 1) → t.ThrottleTimeMs = 0
  Groups : CanonAll (ListedGroup16.Canon version) t.Groups

/-- The specification of `ListGroupsResponse`. -/
def ListGroupsResponse.layout : Layout ListGroupsResponse.type :=
  { wire := ListGroupsResponse.wire, Fits := ListGroupsResponse.Fits, seen := ListGroupsResponse.seen, Canon := ListGroupsResponse.Canon }

end Kafka.Msg
