import Verif.Message.Layout
import Verif.Gen.Model.Metadata
/-!
Generated by tools/gen_messages.py: specification of the Metadata messages.
-/
namespace Kafka.Msg

/-- Wire format of `MetadataRequestTopic3`. -/
def MetadataRequestTopic3.wire (_version : Int16) (t : MetadataRequestTopic3) : List Byte :=
  Wire.string t.Name

/-- Lengths are representable. -/
structure MetadataRequestTopic3.Fits (version : Int16) (t : MetadataRequestTopic3) : Prop where
  Name : FitsString t.Name

/-- The value after `t` has been decoded into `t0`. -/
def MetadataRequestTopic3.seen (_version : Int16) (t _t0 : MetadataRequestTopic3) : MetadataRequestTopic3 :=
  { Name := t.Name }

/-- Nothing can be lost. -/
def MetadataRequestTopic3.Canon (_version : Int16) (_t : MetadataRequestTopic3) : Prop := True

/-- The specification of `MetadataRequestTopic3`. -/
def MetadataRequestTopic3.layout : Layout MetadataRequestTopic3.type :=
  { wire := MetadataRequestTopic3.wire, Fits := MetadataRequestTopic3.Fits, seen := MetadataRequestTopic3.seen, Canon := MetadataRequestTopic3.Canon }

/-- Wire format of `MetadataRequest`. -/
def MetadataRequest.wire (version : Int16) (t : MetadataRequest) : List Byte :=
  Wire.array (MetadataRequestTopic3.wire version) t.Topics ++
  Wire.when (version ≥ 4) (Wire.bool t.AllowAutoTopicCreation) ++
  Wire.when (version ≥ 8) (Wire.bool t.IncludeClusterAuthorizedOperations) ++
  Wire.when (version ≥ 8) (Wire.bool t.IncludeTopicAuthorizedOperations)

/-- Lengths are representable. -/
structure MetadataRequest.Fits (version : Int16) (t : MetadataRequest) : Prop where
  Topics : FitsAll (MetadataRequestTopic3.Fits version) t.Topics

/-- The value after `t` has been decoded into `t0`. -/
def MetadataRequest.seen (version : Int16) (t t0 : MetadataRequest) : MetadataRequest :=
  { Topics := some (t.Topics.elems.map fun x => x.seen version {}),
    AllowAutoTopicCreation := if version ≥ 4 then t.AllowAutoTopicCreation else t0.AllowAutoTopicCreation,
    IncludeClusterAuthorizedOperations := if version ≥ 8 then t.IncludeClusterAuthorizedOperations else t0.IncludeClusterAuthorizedOperations,
    IncludeTopicAuthorizedOperations := if version ≥ 8 then t.IncludeTopicAuthorizedOperations else t0.IncludeTopicAuthorizedOperations }

/-- Nothing in `t` is lost at this version. -/
structure MetadataRequest.Canon (version : Int16) (t : MetadataRequest) : Prop where
  Topics : CanonAll (MetadataRequestTopic3.Canon version) t.Topics
  AllowAutoTopicCreation : ¬(version ≥ 4) → t.AllowAutoTopicCreation = false
  IncludeClusterAuthorizedOperations : ¬(version ≥ 8) → t.IncludeClusterAuthorizedOperations = false
  IncludeTopicAuthorizedOperations : ¬(version ≥ 8) → t.IncludeTopicAuthorizedOperations = false

/-- The specification of `MetadataRequest`. -/
def MetadataRequest.layout : Layout MetadataRequest.type :=
  { wire := MetadataRequest.wire, Fits := MetadataRequest.Fits, seen := MetadataRequest.seen, Canon := MetadataRequest.Canon }

/-- Wire format of `MetadataResponseBroker3`. -/
def MetadataResponseBroker3.wire (version : Int16) (t : MetadataResponseBroker3) : List Byte :=
  Wire.int32 t.NodeId ++
  Wire.string t.Host ++
  Wire.int32 t.Port ++
  Wire.when (version ≥ 1) (Wire.string t.Rack)

/-- Lengths are representable. -/
structure MetadataResponseBroker3.Fits (version : Int16) (t : MetadataResponseBroker3) : Prop where
  Host : FitsString t.Host
  Rack : version ≥ 1 → FitsString t.Rack

/-- The value after `t` has been decoded into `t0`. -/
def MetadataResponseBroker3.seen (version : Int16) (t t0 : MetadataResponseBroker3) : MetadataResponseBroker3 :=
  { NodeId := t.NodeId,
    Host := t.Host,
    Port := t.Port,
    Rack := if version ≥ 1 then t.Rack else t0.Rack }

/-- Nothing in `t` is lost at this version. -/
structure MetadataResponseBroker3.Canon (version : Int16) (t : MetadataResponseBroker3) : Prop where
  Rack : ¬(version ≥ 1) → t.Rack = []

/-- The specification of `MetadataResponseBroker3`. -/
def MetadataResponseBroker3.layout : Layout MetadataResponseBroker3.type :=
  { wire := MetadataResponseBroker3.wire, Fits := MetadataResponseBroker3.Fits, seen := MetadataResponseBroker3.seen, Canon := MetadataResponseBroker3.Canon }

/-- Wire format of `MetadataResponsePartition3`. -/
def MetadataResponsePartition3.wire (version : Int16) (t : MetadataResponsePartition3) : List Byte :=
  Wire.int16 t.ErrorCode ++
  Wire.int32 t.PartitionIndex ++
  Wire.int32 t.LeaderId ++
  Wire.when (version ≥ 7) (Wire.int32 t.LeaderEpoch) ++
  Wire.int32Array t.ReplicaNodes ++
  Wire.int32Array t.IsrNodes ++
  Wire.when (version ≥ 5) (Wire.int32Array t.OfflineReplicas)

/-- Lengths are representable. -/
structure MetadataResponsePartition3.Fits (version : Int16) (t : MetadataResponsePartition3) : Prop where
  ReplicaNodes : FitsSlice t.ReplicaNodes
  IsrNodes : FitsSlice t.IsrNodes
  OfflineReplicas : version ≥ 5 → FitsSlice t.OfflineReplicas

/-- The value after `t` has been decoded into `t0`. -/
def MetadataResponsePartition3.seen (version : Int16) (t t0 : MetadataResponsePartition3) : MetadataResponsePartition3 :=
  { ErrorCode := t.ErrorCode,
    PartitionIndex := t.PartitionIndex,
    LeaderId := t.LeaderId,
    LeaderEpoch := if version ≥ 7 then t.LeaderEpoch else t0.LeaderEpoch,
    ReplicaNodes := t.ReplicaNodes,
    IsrNodes := t.IsrNodes,
    OfflineReplicas := if version ≥ 5 then t.OfflineReplicas else t0.OfflineReplicas }

/-- Nothing in `t` is lost at this version. -/
structure MetadataResponsePartition3.Canon (version : Int16) (t : MetadataResponsePartition3) : Prop where
  LeaderEpoch : ¬(version ≥ 7) → t.LeaderEpoch = 0
  OfflineReplicas : ¬(version ≥ 5) → t.OfflineReplicas = none

/-- The specification of `MetadataResponsePartition3`. -/
def MetadataResponsePartition3.layout : Layout MetadataResponsePartition3.type :=
  { wire := MetadataResponsePartition3.wire, Fits := MetadataResponsePartition3.Fits, seen := MetadataResponsePartition3.seen, Canon := MetadataResponsePartition3.Canon }

/-- Wire format of `MetadataResponseTopic3`. -/
def MetadataResponseTopic3.wire (version : Int16) (t : MetadataResponseTopic3) : List Byte :=
  Wire.int16 t.ErrorCode ++
  Wire.string t.Name ++
  Wire.when (version ≥ 1) (Wire.bool t.IsInternal) ++
  Wire.array (MetadataResponsePartition3.wire version) t.Partitions ++
  Wire.when (version ≥ 8) (Wire.int32 t.TopicAuthorizedOperations)

/-- Lengths are representable. -/
structure MetadataResponseTopic3.Fits (version : Int16) (t : MetadataResponseTopic3) : Prop where
  Name : FitsString t.Name
  Partitions : FitsAll (MetadataResponsePartition3.Fits version) t.Partitions

/-- The value after `t` has been decoded into `t0`. -/
def MetadataResponseTopic3.seen (version : Int16) (t t0 : MetadataResponseTopic3) : MetadataResponseTopic3 :=
  { ErrorCode := t.ErrorCode,
    Name := t.Name,
    IsInternal := if version ≥ 1 then t.IsInternal else t0.IsInternal,
    Partitions := some (t.Partitions.elems.map fun x => x.seen version {}),
    TopicAuthorizedOperations := if version ≥ 8 then t.TopicAuthorizedOperations else t0.TopicAuthorizedOperations }

/-- Nothing in `t` is lost at this version. -/
structure MetadataResponseTopic3.Canon (version : Int16) (t : MetadataResponseTopic3) : Prop where
  IsInternal : ¬(version ≥ 1) → t.IsInternal = false
  Partitions : CanonAll (MetadataResponsePartition3.Canon version) t.Partitions
  TopicAuthorizedOperations : ¬(version ≥ 8) → t.TopicAuthorizedOperations = 0

/-- The specification of `MetadataResponseTopic3`. -/
def MetadataResponseTopic3.layout : Layout MetadataResponseTopic3.type :=
  { wire := MetadataResponseTopic3.wire, Fits := MetadataResponseTopic3.Fits, seen := MetadataResponseTopic3.seen, Canon := MetadataResponseTopic3.Canon }

/-- Wire format of `MetadataResponse`. -/
def MetadataResponse.wire (version : Int16) (t : MetadataResponse) : List Byte :=
  Wire.when (version ≥ 3) (Wire.int32 t.ThrottleTimeMs) ++
  Wire.array (MetadataResponseBroker3.wire version) t.Brokers ++
  Wire.when (version ≥ 2) (Wire.string t.ClusterId) ++
  Wire.when (version ≥ 1) (Wire.int32 t.ControllerId) ++
  Wire.array (MetadataResponseTopic3.wire version) t.Topics ++
  Wire.when (version ≥ 8) (Wire.int32 t.ClusterAuthorizedOperations)

/-- Lengths are representable. -/
structure MetadataResponse.Fits (version : Int16) (t : MetadataResponse) : Prop where
  Brokers : FitsAll (MetadataResponseBroker3.Fits version) t.Brokers
  ClusterId : version ≥ 2 → FitsString t.ClusterId
  Topics : FitsAll (MetadataResponseTopic3.Fits version) t.Topics

/-- The value after `t` has been decoded into `t0`. -/
def MetadataResponse.seen (version : Int16) (t t0 : MetadataResponse) : MetadataResponse :=
  { ThrottleTimeMs := if version ≥ 3 then t.ThrottleTimeMs else t0.ThrottleTimeMs,
    Brokers := some (t.Brokers.elems.map fun x => x.seen version {}),
    ClusterId := if version ≥ 2 then t.ClusterId else t0.ClusterId,
    ControllerId := if version ≥ 1 then t.ControllerId else t0.ControllerId,
    Topics := some (t.Topics.elems.map fun x => x.seen version {}),
    ClusterAuthorizedOperations := if version ≥ 8 then t.ClusterAuthorizedOperations else t0.ClusterAuthorizedOperations }

/-- Nothing in `t` is lost at this version. -/
structure MetadataResponse.Canon (version : Int16) (t : MetadataResponse) : Prop where
  ThrottleTimeMs : ¬(version ≥ 3) → t.ThrottleTimeMs = 0
  Brokers : CanonAll (MetadataResponseBroker3.Canon version) t.Brokers
  ClusterId : ¬(version ≥ 2) → t.ClusterId = []
  ControllerId : ¬(version ≥ 1) → t.ControllerId = 0
  Topics : CanonAll (MetadataResponseTopic3.Canon version) t.Topics
  ClusterAuthorizedOperations : ¬(version ≥ 8) → t.ClusterAuthorizedOperations = 0

/-- The specification of `MetadataResponse`. -/
def MetadataResponse.layout : Layout MetadataResponse.type :=
  { wire := MetadataResponse.wire, Fits := MetadataResponse.Fits, seen := MetadataResponse.seen, Canon := MetadataResponse.Canon }

end Kafka.Msg
