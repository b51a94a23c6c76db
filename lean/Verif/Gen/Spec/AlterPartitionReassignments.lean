import Verif.Message.Layout
import Verif.Gen.Model.AlterPartitionReassignments
/-!
Generated by tools/gen_messages.py: specification of the AlterPartitionReassignments messages.
-/
namespace Kafka.Msg

/-- Wire format of `ReassignablePartition45`. -/
def ReassignablePartition45.wire (_version : Int16) (t : ReassignablePartition45) : List Byte :=
  Wire.int32 t.PartitionIndex ++
  Wire.int32Array t.Replicas

/-- Lengths are representable. -/
structure ReassignablePartition45.Fits (version : Int16) (t : ReassignablePartition45) : Prop where
  Replicas : FitsSlice t.Replicas

/-- The value after `t` has been decoded into `t0`. -/
def ReassignablePartition45.seen (_version : Int16) (t _t0 : ReassignablePartition45) : ReassignablePartition45 :=
  { PartitionIndex := t.PartitionIndex,
    Replicas := t.Replicas }

/-- Nothing can be lost. -/
def ReassignablePartition45.Canon (_version : Int16) (_t : ReassignablePartition45) : Prop := True

/-- The specification of `ReassignablePartition45`. -/
def ReassignablePartition45.layout : Layout ReassignablePartition45.type :=
  { wire := ReassignablePartition45.wire, Fits := ReassignablePartition45.Fits, seen := ReassignablePartition45.seen, Canon := ReassignablePartition45.Canon }

/-- Wire format of `ReassignableTopic45`. -/
def ReassignableTopic45.wire (version : Int16) (t : ReassignableTopic45) : List Byte :=
  Wire.string t.Name ++
  Wire.array (ReassignablePartition45.wire version) t.Partitions

/-- Lengths are representable. -/
structure ReassignableTopic45.Fits (version : Int16) (t : ReassignableTopic45) : Prop where
  Name : FitsString t.Name
  Partitions : FitsAll (ReassignablePartition45.Fits version) t.Partitions

/-- The value after `t` has been decoded into `t0`. -/
def ReassignableTopic45.seen (version : Int16) (t _t0 : ReassignableTopic45) : ReassignableTopic45 :=
  { Name := t.Name,
    Partitions := some (t.Partitions.elems.map fun x => x.seen version {}) }

/-- Nothing in `t` is lost at this version. -/
structure ReassignableTopic45.Canon (version : Int16) (t : ReassignableTopic45) : Prop where
  Partitions : CanonAll (ReassignablePartition45.Canon version) t.Partitions

/-- The specification of `ReassignableTopic45`. -/
def ReassignableTopic45.layout : Layout ReassignableTopic45.type :=
  { wire := ReassignableTopic45.wire, Fits := ReassignableTopic45.Fits, seen := ReassignableTopic45.seen, Canon := ReassignableTopic45.Canon }

/-- Wire format of `AlterPartitionReassignmentsRequest`. -/
def AlterPartitionReassignmentsRequest.wire (version : Int16) (t : AlterPartitionReassignmentsRequest) : List Byte :=
  Wire.int32 t.TimeoutMs ++
  Wire.array (ReassignableTopic45.wire version) t.Topics

/-- Lengths are representable. -/
structure AlterPartitionReassignmentsRequest.Fits (version : Int16) (t : AlterPartitionReassignmentsRequest) : Prop where
  Topics : FitsAll (ReassignableTopic45.Fits version) t.Topics

/-- The value after `t` has been decoded into `t0`. -/
def AlterPartitionReassignmentsRequest.seen (version : Int16) (t _t0 : AlterPartitionReassignmentsRequest) : AlterPartitionReassignmentsRequest :=
  { TimeoutMs := t.TimeoutMs,
    Topics := some (t.Topics.elems.map fun x => x.seen version {}) }

/-- Nothing in `t` is lost at this version. -/
structure AlterPartitionReassignmentsRequest.Canon (version : Int16) (t : AlterPartitionReassignmentsRequest) : Prop where
  Topics : CanonAll (ReassignableTopic45.Canon version) t.Topics

/-- The specification of `AlterPartitionReassignmentsRequest`. -/
def AlterPartitionReassignmentsRequest.layout : Layout AlterPartitionReassignmentsRequest.type :=
  { wire := AlterPartitionReassignmentsRequest.wire, Fits := AlterPartitionReassignmentsRequest.Fits, seen := AlterPartitionReassignmentsRequest.seen, Canon := AlterPartitionReassignmentsRequest.Canon }

/-- Wire format of `ReassignablePartitionResponse45`. -/
def ReassignablePartitionResponse45.wire (_version : Int16) (t : ReassignablePartitionResponse45) : List Byte :=
  Wire.int32 t.PartitionIndex ++
  Wire.int16 t.ErrorCode ++
  Wire.string t.ErrorMessage

/-- Lengths are representable. -/
structure ReassignablePartitionResponse45.Fits (version : Int16) (t : ReassignablePartitionResponse45) : Prop where
  ErrorMessage : FitsString t.ErrorMessage

/-- The value after `t` has been decoded into `t0`. -/
def ReassignablePartitionResponse45.seen (_version : Int16) (t _t0 : ReassignablePartitionResponse45) : ReassignablePartitionResponse45 :=
  { PartitionIndex := t.PartitionIndex,
    ErrorCode := t.ErrorCode,
    ErrorMessage := t.ErrorMessage }

/-- Nothing can be lost. -/
def ReassignablePartitionResponse45.Canon (_version : Int16) (_t : ReassignablePartitionResponse45) : Prop := True

/-- The specification of `ReassignablePartitionResponse45`. -/
def ReassignablePartitionResponse45.layout : Layout ReassignablePartitionResponse45.type :=
  { wire := ReassignablePartitionResponse45.wire, Fits := ReassignablePartitionResponse45.Fits, seen := ReassignablePartitionResponse45.seen, Canon := ReassignablePartitionResponse45.Canon }

/-- Wire format of `ReassignableTopicResponse45`. -/
def ReassignableTopicResponse45.wire (version : Int16) (t : ReassignableTopicResponse45) : List Byte :=
  Wire.string t.Name ++
  Wire.array (ReassignablePartitionResponse45.wire version) t.Partitions

/-- Lengths are representable. -/
structure ReassignableTopicResponse45.Fits (version : Int16) (t : ReassignableTopicResponse45) : Prop where
  Name : FitsString t.Name
  Partitions : FitsAll (ReassignablePartitionResponse45.Fits version) t.Partitions

/-- The value after `t` has been decoded into `t0`. -/
def ReassignableTopicResponse45.seen (version : Int16) (t _t0 : ReassignableTopicResponse45) : ReassignableTopicResponse45 :=
  { Name := t.Name,
    Partitions := some (t.Partitions.elems.map fun x => x.seen version {}) }

/-- Nothing in `t` is lost at this version. -/
structure ReassignableTopicResponse45.Canon (version : Int16) (t : ReassignableTopicResponse45) : Prop where
  Partitions : CanonAll (ReassignablePartitionResponse45.Canon version) t.Partitions

/-- The specification of `ReassignableTopicResponse45`. -/
def ReassignableTopicResponse45.layout : Layout ReassignableTopicResponse45.type :=
  { wire := ReassignableTopicResponse45.wire, Fits := ReassignableTopicResponse45.Fits, seen := ReassignableTopicResponse45.seen, Canon := ReassignableTopicResponse45.Canon }

/-- Wire format of `AlterPartitionReassignmentsResponse`. -/
def AlterPartitionReassignmentsResponse.wire (version : Int16) (t : AlterPartitionReassignmentsResponse) : List Byte :=
  Wire.int32 t.ThrottleTimeMs ++
  Wire.int16 t.ErrorCode ++
  Wire.string t.ErrorMessage ++
  Wire.array (ReassignableTopicResponse45.wire version) t.Responses

/-- Lengths are representable. -/
structure AlterPartitionReassignmentsResponse.Fits (version : Int16) (t : AlterPartitionReassignmentsResponse) : Prop where
  ErrorMessage : FitsString t.ErrorMessage
  Responses : FitsAll (ReassignableTopicResponse45.Fits version) t.Responses

/-- The value after `t` has been decoded into `t0`. -/
def AlterPartitionReassignmentsResponse.seen (version : Int16) (t _t0 : AlterPartitionReassignmentsResponse) : AlterPartitionReassignmentsResponse :=
  { ThrottleTimeMs := t.ThrottleTimeMs,
    ErrorCode := t.ErrorCode,
    ErrorMessage := t.ErrorMessage,
    Responses := some (t.Responses.elems.map fun x => x.seen version {}) }

/-- Nothing in `t` is lost at this version. -/
structure AlterPartitionReassignmentsResponse.Canon (version : Int16) (t : AlterPartitionReassignmentsResponse) : Prop where
  Responses : CanonAll (ReassignableTopicResponse45.Canon version) t.Responses

/-- The specification of `AlterPartitionReassignmentsResponse`. -/
def AlterPartitionReassignmentsResponse.layout : Layout AlterPartitionReassignmentsResponse.type :=
  { wire := AlterPartitionReassignmentsResponse.wire, Fits := AlterPartitionReassignmentsResponse.Fits, seen := AlterPartitionReassignmentsResponse.seen, Canon := AlterPartitionReassignmentsResponse.Canon }

end Kafka.Msg
