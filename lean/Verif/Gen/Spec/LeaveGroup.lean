import Verif.Message.Layout
import Verif.Gen.Model.LeaveGroup
/-!
Generated by tools/gen_messages.py: specification of the LeaveGroup messages.
-/
namespace Kafka.Msg

/-- Wire format of `MemberIdentity13`. -/
def MemberIdentity13.wire (version : Int16) (t : MemberIdentity13) : List Byte :=
  Wire.when (version ≥ 3) (Wire.string t.MemberId) ++
  Wire.when (version ≥ 3) (Wire.string t.GroupInstanceId)

/-- Lengths are representable. -/
structure MemberIdentity13.Fits (version : Int16) (t : MemberIdentity13) : Prop where
  MemberId : version ≥ 3 → FitsString t.MemberId
  GroupInstanceId : version ≥ 3 → FitsString t.GroupInstanceId

/-- The value after `t` has been decoded into `t0`. -/
def MemberIdentity13.seen (version : Int16) (t t0 : MemberIdentity13) : MemberIdentity13 :=
  { MemberId := if version ≥ 3 then t.MemberId else t0.MemberId,
    GroupInstanceId := if version ≥ 3 then t.GroupInstanceId else t0.GroupInstanceId }

/-- Nothing in `t` is lost at this version. -/
structure MemberIdentity13.Canon (version : Int16) (t : MemberIdentity13) : Prop where
  MemberId : ¬(version ≥ 3) → t.MemberId = []
  GroupInstanceId : ¬(version ≥ 3) → t.GroupInstanceId = []

/-- The specification of `MemberIdentity13`. -/
def MemberIdentity13.layout : Layout MemberIdentity13.type :=
  { wire := MemberIdentity13.wire, Fits := MemberIdentity13.Fits, seen := MemberIdentity13.seen, Canon := MemberIdentity13.Canon }

/-- Wire format of `LeaveGroupRequest`. -/
def LeaveGroupRequest.wire (version : Int16) (t : LeaveGroupRequest) : List Byte :=
  Wire.string t.GroupId ++
  Wire.when (version ≥ 0 ∧ version ≤ 2) (Wire.string t.MemberId) ++
  Wire.when (version ≥ 3) (Wire.array (MemberIdentity13.wire version) t.Members)

/-- Lengths are representable. -/
structure LeaveGroupRequest.Fits (version : Int16) (t : LeaveGroupRequest) : Prop where
  GroupId : FitsString t.GroupId
  MemberId : version ≥ 0 ∧ version ≤ 2 → FitsString t.MemberId
  Members : version ≥ 3 → FitsAll (MemberIdentity13.Fits version) t.Members

/-- The value after `t` has been decoded into `t0`. -/
def LeaveGroupRequest.seen (version : Int16) (t t0 : LeaveGroupRequest) : LeaveGroupRequest :=
  { GroupId := t.GroupId,
    MemberId := if version ≥ 0 ∧ version ≤ 2 then t.MemberId else t0.MemberId,
    Members := if version ≥ 3 then some (t.Members.elems.map fun x => x.seen version {}) else t0.Members }

/-- Nothing in `t` is lost at this version. -/
structure LeaveGroupRequest.Canon (version : Int16) (t : LeaveGroupRequest) : Prop where
  MemberId : ¬(version ≥ 0 ∧ version ≤ 2) → t.MemberId = []
  Members : (version ≥ 3 → CanonAll (MemberIdentity13.Canon version) t.Members) ∧ (¬(version ≥ 3) → t.Members = none)

/-- The specification of `LeaveGroupRequest`. -/
def LeaveGroupRequest.layout : Layout LeaveGroupRequest.type :=
  { wire := LeaveGroupRequest.wire, Fits := LeaveGroupRequest.Fits, seen := LeaveGroupRequest.seen, Canon := LeaveGroupRequest.Canon }

/-- Wire format of `MemberResponse13`. -/
def MemberResponse13.wire (version : Int16) (t : MemberResponse13) : List Byte :=
  Wire.when (version ≥ 3) (Wire.string t.MemberId) ++
  Wire.when (version ≥ 3) (Wire.string t.GroupInstanceId) ++
  Wire.when (version ≥ 3) (Wire.int16 t.ErrorCode)

/-- Lengths are representable. -/
structure MemberResponse13.Fits (version : Int16) (t : MemberResponse13) : Prop where
  MemberId : version ≥ 3 → FitsString t.MemberId
  GroupInstanceId : version ≥ 3 → FitsString t.GroupInstanceId

/-- The value after `t` has been decoded into `t0`. -/
def MemberResponse13.seen (version : Int16) (t t0 : MemberResponse13) : MemberResponse13 :=
  { MemberId := if version ≥ 3 then t.MemberId else t0.MemberId,
    GroupInstanceId := if version ≥ 3 then t.GroupInstanceId else t0.GroupInstanceId,
    ErrorCode := if version ≥ 3 then t.ErrorCode else t0.ErrorCode }

/-- Nothing in `t` is lost at this version. -/
structure MemberResponse13.Canon (version : Int16) (t : MemberResponse13) : Prop where
  MemberId : ¬(version ≥ 3) → t.MemberId = []
  GroupInstanceId : ¬(version ≥ 3) → t.GroupInstanceId = []
  ErrorCode : ¬(version ≥ 3) → t.ErrorCode = 0

/-- The specification of `MemberResponse13`. -/
def MemberResponse13.layout : Layout MemberResponse13.type :=
  { wire := MemberResponse13.wire, Fits := MemberResponse13.Fits, seen := MemberResponse13.seen, Canon := MemberResponse13.Canon }

/-- Wire format of `LeaveGroupResponse`. -/
def LeaveGroupResponse.wire (version : Int16) (t : LeaveGroupResponse) : List Byte :=
  Wire.when (version ≥ 1) (Wire.int32 t.ThrottleTimeMs) ++
  Wire.int16 t.ErrorCode ++
  Wire.when (version ≥ 3) (Wire.array (MemberResponse13.wire version) t.Members)

/-- Lengths are representable. -/
structure LeaveGroupResponse.Fits (version : Int16) (t : LeaveGroupResponse) : Prop where
  Members : version ≥ 3 → FitsAll (MemberResponse13.Fits version) t.Members

/-- The value after `t` has been decoded into `t0`. -/
def LeaveGroupResponse.seen (version : Int16) (t t0 : LeaveGroupResponse) : LeaveGroupResponse :=
  { ThrottleTimeMs := if version ≥ 1 then t.ThrottleTimeMs else t0.ThrottleTimeMs,
    ErrorCode := t.ErrorCode,
    Members := if version ≥ 3 then some (t.Members.elems.map fun x => x.seen version {}) else t0.Members }

/-- Nothing in `t` is lost at this version. -/
structure LeaveGroupResponse.Canon (version : Int16) (t : LeaveGroupResponse) : Prop where
  ThrottleTimeMs : ¬(version ≥ 1) → t.ThrottleTimeMs = 0
  Members : (version ≥ 3 → CanonAll (MemberResponse13.Canon version) t.Members) ∧ (¬(version ≥ 3) → t.Members = none)

/-- The specification of `LeaveGroupResponse`. -/
def LeaveGroupResponse.layout : Layout LeaveGroupResponse.type :=
  { wire := LeaveGroupResponse.wire, Fits := LeaveGroupResponse.Fits, seen := LeaveGroupResponse.seen, Canon := LeaveGroupResponse.Canon }

end Kafka.Msg
