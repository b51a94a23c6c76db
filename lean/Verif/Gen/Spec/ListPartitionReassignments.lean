import Verif.Message.Layout
import Verif.Gen.Model.ListPartitionReassignments
/-!
Generated by tools/gen_messages.py: specification of the ListPartitionReassignments messages.
-/
namespace Kafka.Msg

/-- Wire format of `ListPartitionReassignmentsTopics46`. -/
def ListPartitionReassignmentsTopics46.wire (_version : Int16) (t : ListPartitionReassignmentsTopics46) : List Byte :=
  Wire.string t.Name ++
  Wire.int32Array t.PartitionIndexes

/-- Lengths are representable. -/
structure ListPartitionReassignmentsTopics46.Fits (version : Int16) (t : ListPartitionReassignmentsTopics46) : Prop where
  Name : FitsString t.Name
  PartitionIndexes : FitsSlice t.PartitionIndexes

/-- The value after `t` has been decoded into `t0`. -/
def ListPartitionReassignmentsTopics46.seen (_version : Int16) (t _t0 : ListPartitionReassignmentsTopics46) : ListPartitionReassignmentsTopics46 :=
  { Name := t.Name,
    PartitionIndexes := t.PartitionIndexes }

/-- Nothing can be lost. -/
def ListPartitionReassignmentsTopics46.Canon (_version : Int16) (_t : ListPartitionReassignmentsTopics46) : Prop := True

/-- The specification of `ListPartitionReassignmentsTopics46`. -/
def ListPartitionReassignmentsTopics46.layout : Layout ListPartitionReassignmentsTopics46.type :=
  { wire := ListPartitionReassignmentsTopics46.wire, Fits := ListPartitionReassignmentsTopics46.Fits, seen := ListPartitionReassignmentsTopics46.seen, Canon := ListPartitionReassignmentsTopics46.Canon }

/-- Wire format of `ListPartitionReassignmentsRequest`. -/
def ListPartitionReassignmentsRequest.wire (version : Int16) (t : ListPartitionReassignmentsRequest) : List Byte :=
  Wire.int32 t.TimeoutMs ++
  Wire.array (ListPartitionReassignmentsTopics46.wire version) t.Topics

/-- Lengths are representable. -/
structure ListPartitionReassignmentsRequest.Fits (version : Int16) (t : ListPartitionReassignmentsRequest) : Prop where
  Topics : FitsAll (ListPartitionReassignmentsTopics46.Fits version) t.Topics

/-- The value after `t` has been decoded into `t0`. -/
def ListPartitionReassignmentsRequest.seen (version : Int16) (t _t0 : ListPartitionReassignmentsRequest) : ListPartitionReassignmentsRequest :=
  { TimeoutMs := t.TimeoutMs,
    Topics := some (t.Topics.elems.map fun x => x.seen version {}) }

/-- Nothing in `t` is lost at this version. -/
structure ListPartitionReassignmentsRequest.Canon (version : Int16) (t : ListPartitionReassignmentsRequest) : Prop where
  Topics : CanonAll (ListPartitionReassignmentsTopics46.Canon version) t.Topics

/-- The specification of `ListPartitionReassignmentsRequest`. -/
def ListPartitionReassignmentsRequest.layout : Layout ListPartitionReassignmentsRequest.type :=
  { wire := ListPartitionReassignmentsRequest.wire, Fits := ListPartitionReassignmentsRequest.Fits, seen := ListPartitionReassignmentsRequest.seen, Canon := ListPartitionReassignmentsRequest.Canon }

/-- Wire format of `OngoingPartitionReassignment46`. -/
def OngoingPartitionReassignment46.wire (_version : Int16) (t : OngoingPartitionReassignment46) : List Byte :=
  Wire.int32 t.PartitionIndex ++
  Wire.int32Array t.Replicas ++
  Wire.int32Array t.AddingReplicas ++
  Wire.int32Array t.RemovingReplicas

/-- Lengths are representable. -/
structure OngoingPartitionReassignment46.Fits (version : Int16) (t : OngoingPartitionReassignment46) : Prop where
  Replicas : FitsSlice t.Replicas
  AddingReplicas : FitsSlice t.AddingReplicas
  RemovingReplicas : FitsSlice t.RemovingReplicas

/-- The value after `t` has been decoded into `t0`. -/
def OngoingPartitionReassignment46.seen (_version : Int16) (t _t0 : OngoingPartitionReassignment46) : OngoingPartitionReassignment46 :=
  { PartitionIndex := t.PartitionIndex,
    Replicas := t.Replicas,
    AddingReplicas := t.AddingReplicas,
    RemovingReplicas := t.RemovingReplicas }

/-- Nothing can be lost. -/
def OngoingPartitionReassignment46.Canon (_version : Int16) (_t : OngoingPartitionReassignment46) : Prop := True

/-- The specification of `OngoingPartitionReassignment46`. -/
def OngoingPartitionReassignment46.layout : Layout OngoingPartitionReassignment46.type :=
  { wire := OngoingPartitionReassignment46.wire, Fits := OngoingPartitionReassignment46.Fits, seen := OngoingPartitionReassignment46.seen, Canon := OngoingPartitionReassignment46.Canon }

/-- Wire format of `OngoingTopicReassignment46`. -/
def OngoingTopicReassignment46.wire (version : Int16) (t : OngoingTopicReassignment46) : List Byte :=
  Wire.string t.Name ++
  Wire.array (OngoingPartitionReassignment46.wire version) t.Partitions

/-- Lengths are representable. -/
structure OngoingTopicReassignment46.Fits (version : Int16) (t : OngoingTopicReassignment46) : Prop where
  Name : FitsString t.Name
  Partitions : FitsAll (OngoingPartitionReassignment46.Fits version) t.Partitions

/-- The value after `t` has been decoded into `t0`. -/
def OngoingTopicReassignment46.seen (version : Int16) (t _t0 : OngoingTopicReassignment46) : OngoingTopicReassignment46 :=
  { Name := t.Name,
    Partitions := some (t.Partitions.elems.map fun x => x.seen version {}) }

/-- Nothing in `t` is lost at this version. -/
structure OngoingTopicReassignment46.Canon (version : Int16) (t : OngoingTopicReassignment46) : Prop where
  Partitions : CanonAll (OngoingPartitionReassignment46.Canon version) t.Partitions

/-- The specification of `OngoingTopicReassignment46`. -/
def OngoingTopicReassignment46.layout : Layout OngoingTopicReassignment46.type :=
  { wire := OngoingTopicReassignment46.wire, Fits := OngoingTopicReassignment46.Fits, seen := OngoingTopicReassignment46.seen, Canon := OngoingTopicReassignment46.Canon }

/-- Wire format of `ListPartitionReassignmentsResponse`. -/
def ListPartitionReassignmentsResponse.wire (version : Int16) (t : ListPartitionReassignmentsResponse) : List Byte :=
  Wire.int32 t.ThrottleTimeMs ++
  Wire.int16 t.ErrorCode ++
  Wire.string t.ErrorMessage ++
  Wire.array (OngoingTopicReassignment46.wire version) t.Topics

/-- Lengths are representable. -/
structure ListPartitionReassignmentsResponse.Fits (version : Int16) (t : ListPartitionReassignmentsResponse) : Prop where
  ErrorMessage : FitsString t.ErrorMessage
  Topics : FitsAll (OngoingTopicReassignment46.Fits version) t.Topics

/-- The value after `t` has been decoded into `t0`. -/
def ListPartitionReassignmentsResponse.seen (version : Int16) (t _t0 : ListPartitionReassignmentsResponse) : ListPartitionReassignmentsResponse :=
  { ThrottleTimeMs := t.ThrottleTimeMs,
    ErrorCode := t.ErrorCode,
    ErrorMessage := t.ErrorMessage,
    Topics := some (t.Topics.elems.map fun x => x.seen version {}) }

/-- Nothing in `t` is lost at this version. -/
structure ListPartitionReassignmentsResponse.Canon (version : Int16) (t : ListPartitionReassignmentsResponse) : Prop where
  Topics : CanonAll (OngoingTopicReassignment46.Canon version) t.Topics

/-- The specification of `ListPartitionReassignmentsResponse`. -/
def ListPartitionReassignmentsResponse.layout : Layout ListPartitionReassignmentsResponse.type :=
  { wire := ListPartitionReassignmentsResponse.wire, Fits := ListPartitionReassignmentsResponse.Fits, seen := ListPartitionReassignmentsResponse.seen, Canon := ListPartitionReassignmentsResponse.Canon }

end Kafka.Msg
