import Verif.Message.Layout
import Verif.Gen.Model.FindCoordinator
/-!
Generated by tools/gen_messages.py: specification of the FindCoordinator messages.
-/
namespace Kafka.Msg

/-- Wire format of `FindCoordinatorRequest`. -/
def FindCoordinatorRequest.wire (version : Int16) (t : FindCoordinatorRequest) : List Byte :=
  Wire.string t.Key ++
  Wire.when (version ≥ 1) (Wire.int8 t.KeyType)

/-- Lengths are representable. -/
structure FindCoordinatorRequest.Fits (version : Int16) (t : FindCoordinatorRequest) : Prop where
  Key : FitsString t.Key

/-- The value after `t` has been decoded into `t0`. -/
def FindCoordinatorRequest.seen (version : Int16) (t t0 : FindCoordinatorRequest) : FindCoordinatorRequest :=
  { Key := t.Key,
    KeyType := if version ≥ 1 then t.KeyType else t0.KeyType }

/-- Nothing in `t` is lost at this version. -/
structure FindCoordinatorRequest.Canon (version : Int16) (t : FindCoordinatorRequest) : Prop where
  KeyType : ¬(version ≥ 1) → t.KeyType = 0

/-- The specification of `FindCoordinatorRequest`. -/
def FindCoordinatorRequest.layout : Layout FindCoordinatorRequest.type :=
  { wire := FindCoordinatorRequest.wire, Fits := FindCoordinatorRequest.Fits, seen := FindCoordinatorRequest.seen, Canon := FindCoordinatorRequest.Canon }

/-- Wire format of `FindCoordinatorResponse`. -/
def FindCoordinatorResponse.wire (version : Int16) (t : FindCoordinatorResponse) : List Byte :=
  Wire.when (version ≥ 1) (Wire.int32 t.ThrottleTimeMs) ++
  Wire.int16 t.ErrorCode ++
  Wire.when (version ≥ 1) (Wire.string t.ErrorMessage) ++
  Wire.int32 t.NodeId ++
  Wire.string t.Host ++
  Wire.int32 t.Port

/-- Lengths are representable. -/
structure FindCoordinatorResponse.Fits (version : Int16) (t : FindCoordinatorResponse) : Prop where
  ErrorMessage : version ≥ 1 → FitsString t.ErrorMessage
  Host : FitsString t.Host

/-- The value after `t` has been decoded into `t0`. -/
def FindCoordinatorResponse.seen (version : Int16) (t t0 : FindCoordinatorResponse) : FindCoordinatorResponse :=
  { ThrottleTimeMs := if version ≥ 1 then t.ThrottleTimeMs else t0.ThrottleTimeMs,
    ErrorCode := t.ErrorCode,
    ErrorMessage := if version ≥ 1 then t.ErrorMessage else t0.ErrorMessage,
    NodeId := t.NodeId,
    Host := t.Host,
    Port := t.Port }

/-- Nothing in `t` is lost at this version. -/
structure FindCoordinatorResponse.Canon (version : Int16) (t : FindCoordinatorResponse) : Prop where
  ThrottleTimeMs : ¬(version ≥ 1) → t.ThrottleTimeMs = 0
  ErrorMessage : ¬(version ≥ 1) → t.ErrorMessage = []

/-- The specification of `FindCoordinatorResponse`. -/
def FindCoordinatorResponse.layout : Layout FindCoordinatorResponse.type :=
  { wire := FindCoordinatorResponse.wire, Fits := FindCoordinatorResponse.Fits, seen := FindCoordinatorResponse.seen, Canon := FindCoordinatorResponse.Canon }

end Kafka.Msg
