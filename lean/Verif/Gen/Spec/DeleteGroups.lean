import Verif.Message.Layout
import Verif.Gen.Model.DeleteGroups
/-!
Generated by tools/gen_messages.py: specification of the DeleteGroups messages.
-/
namespace Kafka.Msg

/-- Wire format of `DeleteGroupsRequest`. -/
def DeleteGroupsRequest.wire (_version : Int16) (t : DeleteGroupsRequest) : List Byte :=
  Wire.stringArray t.GroupsNames

/-- Lengths are representable. -/
structure DeleteGroupsRequest.Fits (version : Int16) (t : DeleteGroupsRequest) : Prop where
  GroupsNames : FitsStrings t.GroupsNames

/-- The value after `t` has been decoded into `t0`. -/
def DeleteGroupsRequest.seen (_version : Int16) (t _t0 : DeleteGroupsRequest) : DeleteGroupsRequest :=
  { GroupsNames := t.GroupsNames }

/-- Nothing can be lost. -/
def DeleteGroupsRequest.Canon (_version : Int16) (_t : DeleteGroupsRequest) : Prop := True

/-- The specification of `DeleteGroupsRequest`. -/
def DeleteGroupsRequest.layout : Layout DeleteGroupsRequest.type :=
  { wire := DeleteGroupsRequest.wire, Fits := DeleteGroupsRequest.Fits, seen := DeleteGroupsRequest.seen, Canon := DeleteGroupsRequest.Canon }

/-- Wire format of `DeletableGroupResult42`. -/
def DeletableGroupResult42.wire (_version : Int16) (t : DeletableGroupResult42) : List Byte :=
  Wire.string t.GroupId ++
  Wire.int16 t.ErrorCode

/-- Lengths are representable. -/
structure DeletableGroupResult42.Fits (version : Int16) (t : DeletableGroupResult42) : Prop where
  GroupId : FitsString t.GroupId

/-- The value after `t` has been decoded into `t0`. -/
def DeletableGroupResult42.seen (_version : Int16) (t _t0 : DeletableGroupResult42) : DeletableGroupResult42 :=
  { GroupId := t.GroupId,
    ErrorCode := t.ErrorCode }

/-- Nothing can be lost. -/
def DeletableGroupResult42.Canon (_version : Int16) (_t : DeletableGroupResult42) : Prop := True

/-- The specification of `DeletableGroupResult42`. -/
def DeletableGroupResult42.layout : Layout DeletableGroupResult42.type :=
  { wire := DeletableGroupResult42.wire, Fits := DeletableGroupResult42.Fits, seen := DeletableGroupResult42.seen, Canon := DeletableGroupResult42.Canon }

/-- Wire format of `DeleteGroupsResponse`. -/
def DeleteGroupsResponse.wire (version : Int16) (t : DeleteGroupsResponse) : List Byte :=
  Wire.int32 t.ThrottleTimeMs ++
  Wire.array (DeletableGroupResult42.wire version) t.Results

/-- Lengths are representable. -/
structure DeleteGroupsResponse.Fits (version : Int16) (t : DeleteGroupsResponse) : Prop where
  Results : FitsAll (DeletableGroupResult42.Fits version) t.Results

/-- The value after `t` has been decoded into `t0`. -/
def DeleteGroupsResponse.seen (version : Int16) (t _t0 : DeleteGroupsResponse) : DeleteGroupsResponse :=
  { ThrottleTimeMs := t.ThrottleTimeMs,
    Results := some (t.Results.elems.map fun x => x.seen version {}) }

/-- Nothing in `t` is lost at this version. -/
structure DeleteGroupsResponse.Canon (version : Int16) (t : DeleteGroupsResponse) : Prop where
  Results : CanonAll (DeletableGroupResult42.Canon version) t.Results

/-- The specification of `DeleteGroupsResponse`. -/
def DeleteGroupsResponse.layout : Layout DeleteGroupsResponse.type :=
  { wire := DeleteGroupsResponse.wire, Fits := DeleteGroupsResponse.Fits, seen := DeleteGroupsResponse.seen, Canon := DeleteGroupsResponse.Canon }

end Kafka.Msg
