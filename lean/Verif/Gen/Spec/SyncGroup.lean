import Verif.Message.Layout
import Verif.Gen.Model.SyncGroup
/-!
Generated by tools/gen_messages.py: specification of the SyncGroup messages.
-/
namespace Kafka.Msg

/-- Wire format of `SyncGroupRequestAssignment14`. -/
def SyncGroupRequestAssignment14.wire (_version : Int16) (t : SyncGroupRequestAssignment14) : List Byte :=
  Wire.string t.MemberId ++
  Wire.bytes t.Assignment

/-- Lengths are representable. -/
structure SyncGroupRequestAssignment14.Fits (version : Int16) (t : SyncGroupRequestAssignment14) : Prop where
  MemberId : FitsString t.MemberId
  Assignment : FitsSlice t.Assignment

/-- The value after `t` has been decoded into `t0`. -/
def SyncGroupRequestAssignment14.seen (_version : Int16) (t _t0 : SyncGroupRequestAssignment14) : SyncGroupRequestAssignment14 :=
  { MemberId := t.MemberId,
    Assignment := t.Assignment.nonNil }

/-- Nothing in `t` is lost at this version. -/
structure SyncGroupRequestAssignment14.Canon (version : Int16) (t : SyncGroupRequestAssignment14) : Prop where
  Assignment : t.Assignment.NotNil

/-- The specification of `SyncGroupRequestAssignment14`. -/
def SyncGroupRequestAssignment14.layout : Layout SyncGroupRequestAssignment14.type :=
  { wire := SyncGroupRequestAssignment14.wire, Fits := SyncGroupRequestAssignment14.Fits, seen := SyncGroupRequestAssignment14.seen, Canon := SyncGroupRequestAssignment14.Canon }

/-- Wire format of `SyncGroupRequest`. -/
def SyncGroupRequest.wire (version : Int16) (t : SyncGroupRequest) : List Byte :=
  Wire.string t.GroupId ++
  Wire.int32 t.GenerationId ++
  Wire.string t.MemberId ++
  Wire.when (version ≥ 3) (Wire.string t.GroupInstanceId) ++
  Wire.array (SyncGroupRequestAssignment14.wire version) t.Assignments

/-- Lengths are representable. -/
structure SyncGroupRequest.Fits (version : Int16) (t : SyncGroupRequest) : Prop where
  GroupId : FitsString t.GroupId
  MemberId : FitsString t.MemberId
  GroupInstanceId : version ≥ 3 → FitsString t.GroupInstanceId
  Assignments : FitsAll (SyncGroupRequestAssignment14.Fits version) t.Assignments

/-- The value after `t` has been decoded into `t0`. -/
def SyncGroupRequest.seen (version : Int16) (t t0 : SyncGroupRequest) : SyncGroupRequest :=
  { GroupId := t.GroupId,
    GenerationId := t.GenerationId,
    MemberId := t.MemberId,
    GroupInstanceId := if version ≥ 3 then t.GroupInstanceId else t0.GroupInstanceId,
    Assignments := some (t.Assignments.elems.map fun x => x.seen version {}) }

/-- Nothing in `t` is lost at this version. -/
structure SyncGroupRequest.Canon (version : Int16) (t : SyncGroupRequest) : Prop where
  GroupInstanceId : ¬(version ≥ 3) → t.GroupInstanceId = []
  Assignments : CanonAll (SyncGroupRequestAssignment14.Canon version) t.Assignments

/-- The specification of `SyncGroupRequest`. -/
def SyncGroupRequest.layout : Layout SyncGroupRequest.type :=
  { wire := SyncGroupRequest.wire, Fits := SyncGroupRequest.Fits, seen := SyncGroupRequest.seen, Canon := SyncGroupRequest.Canon }

/-- Wire format of `SyncGroupResponse`. -/
def SyncGroupResponse.wire (version : Int16) (t : SyncGroupResponse) : List Byte :=
  Wire.when (version ≥ 1) (Wire.int32 t.ThrottleTimeMs) ++
  Wire.int16 t.ErrorCode ++
  Wire.bytes t.Assignment

/-- Lengths are representable. -/
structure SyncGroupResponse.Fits (version : Int16) (t : SyncGroupResponse) : Prop where
  Assignment : FitsSlice t.Assignment

/-- The value after `t` has been decoded into `t0`. -/
def SyncGroupResponse.seen (version : Int16) (t t0 : SyncGroupResponse) : SyncGroupResponse :=
  { ThrottleTimeMs := if version ≥ 1 then t.ThrottleTimeMs else t0.ThrottleTimeMs,
    ErrorCode := t.ErrorCode,
    Assignment := t.Assignment.nonNil }

/-- Nothing in `t` is lost at this version. -/
structure SyncGroupResponse.Canon (version : Int16) (t : SyncGroupResponse) : Prop where
  ThrottleTimeMs : ¬(version ≥ 1) → t.ThrottleTimeMs = 0
  Assignment : t.Assignment.NotNil

/-- The specification of `SyncGroupResponse`. -/
def SyncGroupResponse.layout : Layout SyncGroupResponse.type :=
  { wire := SyncGroupResponse.wire, Fits := SyncGroupResponse.Fits, seen := SyncGroupResponse.seen, Canon := SyncGroupResponse.Canon }

end Kafka.Msg
