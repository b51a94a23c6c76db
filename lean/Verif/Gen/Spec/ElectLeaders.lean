import Verif.Message.Layout
import Verif.Gen.Model.ElectLeaders
/-!
Generated by tools/gen_messages.py: specification of the ElectLeaders messages.
-/
namespace Kafka.Msg

/-- Wire format of `TopicPartitions43`. -/
def TopicPartitions43.wire (_version : Int16) (t : TopicPartitions43) : List Byte :=
  Wire.string t.Topic ++
  Wire.int32Array t.PartitionId

/-- Lengths are representable. -/
structure TopicPartitions43.Fits (version : Int16) (t : TopicPartitions43) : Prop where
  Topic : FitsString t.Topic
  PartitionId : FitsSlice t.PartitionId

/-- The value after `t` has been decoded into `t0`. -/
def TopicPartitions43.seen (_version : Int16) (t _t0 : TopicPartitions43) : TopicPartitions43 :=
  { Topic := t.Topic,
    PartitionId := t.PartitionId }

/-- Nothing can be lost. -/
def TopicPartitions43.Canon (_version : Int16) (_t : TopicPartitions43) : Prop := True

/-- The specification of `TopicPartitions43`. -/
def TopicPartitions43.layout : Layout TopicPartitions43.type :=
  { wire := TopicPartitions43.wire, Fits := TopicPartitions43.Fits, seen := TopicPartitions43.seen, Canon := TopicPartitions43.Canon }

/-- Wire format of `ElectLeadersRequest`. -/
def ElectLeadersRequest.wire (version : Int16) (t : ElectLeadersRequest) : List Byte :=
  Wire.when (version ≥ 1) (Wire.int8 t.ElectionType) ++
  Wire.array (TopicPartitions43.wire version) t.TopicPartitions ++
  Wire.int32 t.TimeoutMs

/-- Lengths are representable. -/
structure ElectLeadersRequest.Fits (version : Int16) (t : ElectLeadersRequest) : Prop where
  TopicPartitions : FitsAll (TopicPartitions43.Fits version) t.TopicPartitions

/-- The value after `t` has been decoded into `t0`. -/
def ElectLeadersRequest.seen (version : Int16) (t t0 : ElectLeadersRequest) : ElectLeadersRequest :=
  { ElectionType := if version ≥ 1 then t.ElectionType else t0.ElectionType,
    TopicPartitions := some (t.TopicPartitions.elems.map fun x => x.seen version {}),
    TimeoutMs := t.TimeoutMs }

/-- Nothing in `t` is lost at this version. -/
structure ElectLeadersRequest.Canon (version : Int16) (t : ElectLeadersRequest) : Prop where
  ElectionType : ¬(version ≥ 1) → t.ElectionType = 0
  TopicPartitions : CanonAll (TopicPartitions43.Canon version) t.TopicPartitions

/-- The specification of `ElectLeadersRequest`. -/
def ElectLeadersRequest.layout : Layout ElectLeadersRequest.type :=
  { wire := ElectLeadersRequest.wire, Fits := ElectLeadersRequest.Fits, seen := ElectLeadersRequest.seen, Canon := ElectLeadersRequest.Canon }

/-- Wire format of `PartitionResult43`. -/
def PartitionResult43.wire (_version : Int16) (t : PartitionResult43) : List Byte :=
  Wire.int32 t.PartitionId ++
  Wire.int16 t.ErrorCode ++
  Wire.string t.ErrorMessage

/-- Lengths are representable. -/
structure PartitionResult43.Fits (version : Int16) (t : PartitionResult43) : Prop where
  ErrorMessage : FitsString t.ErrorMessage

/-- The value after `t` has been decoded into `t0`. -/
def PartitionResult43.seen (_version : Int16) (t _t0 : PartitionResult43) : PartitionResult43 :=
  { PartitionId := t.PartitionId,
    ErrorCode := t.ErrorCode,
    ErrorMessage := t.ErrorMessage }

/-- Nothing can be lost. -/
def PartitionResult43.Canon (_version : Int16) (_t : PartitionResult43) : Prop := True

/-- The specification of `PartitionResult43`. -/
def PartitionResult43.layout : Layout PartitionResult43.type :=
  { wire := PartitionResult43.wire, Fits := PartitionResult43.Fits, seen := PartitionResult43.seen, Canon := PartitionResult43.Canon }

/-- Wire format of `ReplicaElectionResult43`. -/
def ReplicaElectionResult43.wire (version : Int16) (t : ReplicaElectionResult43) : List Byte :=
  Wire.string t.Topic ++
  Wire.array (PartitionResult43.wire version) t.PartitionResult

/-- Lengths are representable. -/
structure ReplicaElectionResult43.Fits (version : Int16) (t : ReplicaElectionResult43) : Prop where
  Topic : FitsString t.Topic
  PartitionResult : FitsAll (PartitionResult43.Fits version) t.PartitionResult

/-- The value after `t` has been decoded into `t0`. -/
def ReplicaElectionResult43.seen (version : Int16) (t _t0 : ReplicaElectionResult43) : ReplicaElectionResult43 :=
  { Topic := t.Topic,
    PartitionResult := some (t.PartitionResult.elems.map fun x => x.seen version {}) }

/-- Nothing in `t` is lost at this version. -/
structure ReplicaElectionResult43.Canon (version : Int16) (t : ReplicaElectionResult43) : Prop where
  PartitionResult : CanonAll (PartitionResult43.Canon version) t.PartitionResult

/-- The specification of `ReplicaElectionResult43`. -/
def ReplicaElectionResult43.layout : Layout ReplicaElectionResult43.type :=
  { wire := ReplicaElectionResult43.wire, Fits := ReplicaElectionResult43.Fits, seen := ReplicaElectionResult43.seen, Canon := ReplicaElectionResult43.Canon }

/-- Wire format of `ElectLeadersResponse`. -/
def ElectLeadersResponse.wire (version : Int16) (t : ElectLeadersResponse) : List Byte :=
  Wire.int32 t.ThrottleTimeMs ++
  Wire.when (version ≥ 1) (Wire.int16 t.ErrorCode) ++
  Wire.array (ReplicaElectionResult43.wire version) t.ReplicaElectionResults

/-- Lengths are representable. -/
structure ElectLeadersResponse.Fits (version : Int16) (t : ElectLeadersResponse) : Prop where
  ReplicaElectionResults : FitsAll (ReplicaElectionResult43.Fits version) t.ReplicaElectionResults

/-- The value after `t` has been decoded into `t0`. -/
def ElectLeadersResponse.seen (version : Int16) (t t0 : ElectLeadersResponse) : ElectLeadersResponse :=
  { ThrottleTimeMs := t.ThrottleTimeMs,
    ErrorCode := if version ≥ 1 then t.ErrorCode else t0.ErrorCode,
    ReplicaElectionResults := some (t.ReplicaElectionResults.elems.map fun x => x.seen version {}) }

/-- Nothing in `t` is lost at this version. -/
structure ElectLeadersResponse.Canon (version : Int16) (t : ElectLeadersResponse) : Prop where
  ErrorCode : ¬(version ≥ 1) → t.ErrorCode = 0
  ReplicaElectionResults : CanonAll (ReplicaElectionResult43.Canon version) t.ReplicaElectionResults

/-- The specification of `ElectLeadersResponse`. -/
def ElectLeadersResponse.layout : Layout ElectLeadersResponse.type :=
  { wire := ElectLeadersResponse.wire, Fits := ElectLeadersResponse.Fits, seen := ElectLeadersResponse.seen, Canon := ElectLeadersResponse.Canon }

end Kafka.Msg
