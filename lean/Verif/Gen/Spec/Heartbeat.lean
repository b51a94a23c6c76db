import Verif.Message.Layout
import Verif.Gen.Model.Heartbeat
/-!
Generated by tools/gen_messages.py: specification of the Heartbeat messages.
-/
namespace Kafka.Msg

/-- Wire format of `HeartbeatRequest`. -/
def HeartbeatRequest.wire (version : Int16) (t : HeartbeatRequest) : List Byte :=
  Wire.string t.GroupId ++
  Wire.int32 t.GenerationId ++
  Wire.string t.MemberId ++
  Wire.when (version ≥ 3) (Wire.string t.GroupInstanceId)

/-- Lengths are representable. -/
structure HeartbeatRequest.Fits (version : Int16) (t : HeartbeatRequest) : Prop where
  GroupId : FitsString t.GroupId
  MemberId : FitsString t.MemberId
  GroupInstanceId : version ≥ 3 → FitsString t.GroupInstanceId

/-- The value after `t` has been decoded into `t0`. -/
def HeartbeatRequest.seen (version : Int16) (t t0 : HeartbeatRequest) : HeartbeatRequest :=
  { GroupId := t.GroupId,
    GenerationId := t.GenerationId,
    MemberId := t.MemberId,
    GroupInstanceId := if version ≥ 3 then t.GroupInstanceId else t0.GroupInstanceId }

/-- Nothing in `t` is lost at this version. -/
structure HeartbeatRequest.Canon (version : Int16) (t : HeartbeatRequest) : Prop where
  GroupInstanceId : ¬(version ≥ 3) → t.GroupInstanceId = []

/-- The specification of `HeartbeatRequest`. -/
def HeartbeatRequest.layout : Layout HeartbeatRequest.type :=
  { wire := HeartbeatRequest.wire, Fits := HeartbeatRequest.Fits, seen := HeartbeatRequest.seen, Canon := HeartbeatRequest.Canon }

/-- Wire format of `HeartbeatResponse`. -/
def HeartbeatResponse.wire (version : Int16) (t : HeartbeatResponse) : List Byte :=
  Wire.when (version ≥ 1) (Wire.int32 t.ThrottleTimeMs) ++
  Wire.int16 t.ErrorCode

/-- No field has a length prefix. -/
def HeartbeatResponse.Fits (_version : Int16) (_t : HeartbeatResponse) : Prop := True

/-- The value after `t` has been decoded into `t0`. -/
def HeartbeatResponse.seen (version : Int16) (t t0 : HeartbeatResponse) : HeartbeatResponse :=
  { ThrottleTimeMs := if version ≥ 1 then t.ThrottleTimeMs else t0.ThrottleTimeMs,
    ErrorCode := t.ErrorCode }

/-- Nothing in `t` is lost at this version. -/
structure HeartbeatResponse.Canon (version : Int16) (t : HeartbeatResponse) : Prop where
  ThrottleTimeMs : ¬(version ≥ 1) → t.ThrottleTimeMs = 0

/-- The specification of `HeartbeatResponse`. -/
def HeartbeatResponse.layout : Layout HeartbeatResponse.type :=
  { wire := HeartbeatResponse.wire, Fits := HeartbeatResponse.Fits, seen := HeartbeatResponse.seen, Canon := HeartbeatResponse.Canon }

end Kafka.Msg
