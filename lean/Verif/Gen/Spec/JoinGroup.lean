import Verif.Message.Layout
import Verif.Gen.Model.JoinGroup
/-!
Generated by tools/gen_messages.py: specification of the JoinGroup messages.
-/
namespace Kafka.Msg

/-- Wire format of `JoinGroupRequestProtocol11`. -/
def JoinGroupRequestProtocol11.wire (_version : Int16) (t : JoinGroupRequestProtocol11) : List Byte :=
  Wire.string t.Name ++
  Wire.bytes t.Metadata

/-- Lengths are representable. -/
structure JoinGroupRequestProtocol11.Fits (version : Int16) (t : JoinGroupRequestProtocol11) : Prop where
  Name : FitsString t.Name
  Metadata : FitsSlice t.Metadata

/-- The value after `t` has been decoded into `t0`. -/
def JoinGroupRequestProtocol11.seen (_version : Int16) (t _t0 : JoinGroupRequestProtocol11) : JoinGroupRequestProtocol11 :=
  { Name := t.Name,
    Metadata := t.Metadata.nonNil }

/-- Nothing in `t` is lost at this version. -/
structure JoinGroupRequestProtocol11.Canon (version : Int16) (t : JoinGroupRequestProtocol11) : Prop where
  Metadata : t.Metadata.NotNil

/-- The specification of `JoinGroupRequestProtocol11`. -/
def JoinGroupRequestProtocol11.layout : Layout JoinGroupRequestProtocol11.type :=
  { wire := JoinGroupRequestProtocol11.wire, Fits := JoinGroupRequestProtocol11.Fits, seen := JoinGroupRequestProtocol11.seen, Canon := JoinGroupRequestProtocol11.Canon }

/-- Wire format of `JoinGroupRequest`. -/
def JoinGroupRequest.wire (version : Int16) (t : JoinGroupRequest) : List Byte :=
  Wire.string t.GroupId ++
  Wire.int32 t.SessionTimeoutMs ++
  Wire.when (version ≥ 1) (Wire.int32 t.RebalanceTimeoutMs) ++
  Wire.string t.MemberId ++
  Wire.when (version ≥ 5) (Wire.string t.GroupInstanceId) ++
  Wire.string t.ProtocolType ++
  Wire.array (JoinGroupRequestProtocol11.wire version) t.Protocols

/-- Lengths are representable. -/
structure JoinGroupRequest.Fits (version : Int16) (t : JoinGroupRequest) : Prop where
  GroupId : FitsString t.GroupId
  MemberId : FitsString t.MemberId
  GroupInstanceId : version ≥ 5 → FitsString t.GroupInstanceId
  ProtocolType : FitsString t.ProtocolType
  Protocols : FitsAll (JoinGroupRequestProtocol11.Fits version) t.Protocols

/-- The value after `t` has been decoded into `t0`. -/
def JoinGroupRequest.seen (version : Int16) (t t0 : JoinGroupRequest) : JoinGroupRequest :=
  { GroupId := t.GroupId,
    SessionTimeoutMs := t.SessionTimeoutMs,
    RebalanceTimeoutMs := if version ≥ 1 then t.RebalanceTimeoutMs else t0.RebalanceTimeoutMs,
    MemberId := t.MemberId,
    GroupInstanceId := if version ≥ 5 then t.GroupInstanceId else t0.GroupInstanceId,
    ProtocolType := t.ProtocolType,
    Protocols := some (t.Protocols.elems.map fun x => x.seen version {}) }

/-- Nothing in `t` is lost at this version. -/
structure JoinGroupRequest.Canon (version : Int16) (t : JoinGroupRequest) : Prop where
  RebalanceTimeoutMs : ¬(version ≥ 1) → t.RebalanceTimeoutMs = 0
  GroupInstanceId : ¬(version ≥ 5) → t.GroupInstanceId = []
  Protocols : CanonAll (JoinGroupRequestProtocol11.Canon version) t.Protocols

/-- The specification of `JoinGroupRequest`. -/
def JoinGroupRequest.layout : Layout JoinGroupRequest.type :=
  { wire := JoinGroupRequest.wire, Fits := JoinGroupRequest.Fits, seen := JoinGroupRequest.seen, Canon := JoinGroupRequest.Canon }

/-- Wire format of `JoinGroupResponseMember11`. -/
def JoinGroupResponseMember11.wire (version : Int16) (t : JoinGroupResponseMember11) : List Byte :=
  Wire.string t.MemberId ++
  Wire.when (version ≥ 5) (Wire.string t.GroupInstanceId) ++
  Wire.bytes t.Metadata

/-- Lengths are representable. -/
structure JoinGroupResponseMember11.Fits (version : Int16) (t : JoinGroupResponseMember11) : Prop where
  MemberId : FitsString t.MemberId
  GroupInstanceId : version ≥ 5 → FitsString t.GroupInstanceId
  Metadata : FitsSlice t.Metadata

/-- The value after `t` has been decoded into `t0`. -/
def JoinGroupResponseMember11.seen (version : Int16) (t t0 : JoinGroupResponseMember11) : JoinGroupResponseMember11 :=
  { MemberId := t.MemberId,
    GroupInstanceId := if version ≥ 5 then t.GroupInstanceId else t0.GroupInstanceId,
    Metadata := t.Metadata.nonNil }

/-- Nothing in `t` is lost at this version. -/
structure JoinGroupResponseMember11.Canon (version : Int16) (t : JoinGroupResponseMember11) : Prop where
  GroupInstanceId : ¬(version ≥ 5) → t.GroupInstanceId = []
  Metadata : t.Metadata.NotNil

/-- The specification of `JoinGroupResponseMember11`. -/
def JoinGroupResponseMember11.layout : Layout JoinGroupResponseMember11.type :=
  { wire := JoinGroupResponseMember11.wire, Fits := JoinGroupResponseMember11.Fits, seen := JoinGroupResponseMember11.seen, Canon := JoinGroupResponseMember11.Canon }

/-- Wire format of `JoinGroupResponse`. -/
def JoinGroupResponse.wire (version : Int16) (t : JoinGroupResponse) : List Byte :=
  Wire.when (version ≥ 2) (Wire.int32 t.ThrottleTimeMs) ++
  Wire.int16 t.ErrorCode ++
  Wire.int32 t.GenerationId ++
  Wire.string t.ProtocolName ++
  Wire.string t.Leader ++
  Wire.string t.MemberId ++
  Wire.array (JoinGroupResponseMember11.wire version) t.Members

/-- Lengths are representable. -/
structure JoinGroupResponse.Fits (version : Int16) (t : JoinGroupResponse) : Prop where
  ProtocolName : FitsString t.ProtocolName
  Leader : FitsString t.Leader
  MemberId : FitsString t.MemberId
  Members : FitsAll (JoinGroupResponseMember11.Fits version) t.Members

/-- The value after `t` has been decoded into `t0`. -/
def JoinGroupResponse.seen (version : Int16) (t t0 : JoinGroupResponse) : JoinGroupResponse :=
  { ThrottleTimeMs := if version ≥ 2 then t.ThrottleTimeMs else t0.ThrottleTimeMs,
    ErrorCode := t.ErrorCode,
    GenerationId := t.GenerationId,
    ProtocolName := t.ProtocolName,
    Leader := t.Leader,
    MemberId := t.MemberId,
    Members := some (t.Members.elems.map fun x => x.seen version {}) }

/-- Nothing in `t` is lost at this version. -/
structure JoinGroupResponse.Canon (version : Int16) (t : JoinGroupResponse) : Prop where
  ThrottleTimeMs : ¬(version ≥ 2) → t.ThrottleTimeMs = 0
  Members : CanonAll (JoinGroupResponseMember11.Canon version) t.Members

/-- The specification of `JoinGroupResponse`. -/
def JoinGroupResponse.layout : Layout JoinGroupResponse.type :=
  { wire := JoinGroupResponse.wire, Fits := JoinGroupResponse.Fits, seen := JoinGroupResponse.seen, Canon := JoinGroupResponse.Canon }

end Kafka.Msg
