import Verif.Protocol.Schema
/-!
The messages of the Kafka protocol, version 2.4, as the project's message definitions give them
(clients/src/main/resources/common/message/*.json), written down independently of the client's code.
Tagged fields, which only flexible versions have, are left out.
-/
namespace Kafka.Protocol

open Ty

abbrev done := Fields.done

/-! ### Headers -/

/-- Version 0 has no client id; version 2 is flexible, but the client id is not compact. -/
def RequestHeader : Fields :=
  field "RequestApiKey" 0 int16 <| field "RequestApiVersion" 0 int16 <| field "CorrelationId" 0 int32 <|
  nullable "ClientId" 1 1 string done

def ResponseHeader : Fields := field "CorrelationId" 0 int32 done

/-! ### Produce (0), versions 0-8 -/

def PartitionProduceData : Fields := field "PartitionIndex" 0 int32 <| nullable "Records" 0 0 bytes done
def TopicProduceData : Fields := field "Name" 0 string <| field "Partitions" 0 (array (struct PartitionProduceData)) done
def ProduceRequest : Fields :=
  nullable "TransactionalId" 3 0 string <| field "Acks" 0 int16 <| field "TimeoutMs" 0 int32 <|
  field "Topics" 0 (array (struct TopicProduceData)) done

def BatchIndexAndErrorMessage : Fields := field "BatchIndex" 8 int32 <| nullable "BatchIndexErrorMessage" 8 8 string done
def PartitionProduceResponse : Fields :=
  field "PartitionIndex" 0 int32 <| field "ErrorCode" 0 int16 <| field "BaseOffset" 0 int64 <|
  field "LogAppendTimeMs" 2 int64 <| field "LogStartOffset" 5 int64 <|
  field "RecordErrors" 8 (array (struct BatchIndexAndErrorMessage)) <| nullable "ErrorMessage" 8 8 string done
def TopicProduceResponse : Fields :=
  field "Name" 0 string <| field "Partitions" 0 (array (struct PartitionProduceResponse)) done
def ProduceResponse : Fields :=
  field "Responses" 0 (array (struct TopicProduceResponse)) <| field "ThrottleTimeMs" 1 int32 done

/-! ### Fetch (1), versions 0-11 -/

def FetchPartition : Fields :=
  field "PartitionIndex" 0 int32 <| field "CurrentLeaderEpoch" 9 int32 <| field "FetchOffset" 0 int64 <|
  field "LogStartOffset" 5 int64 <| field "MaxBytes" 0 int32 done
def FetchableTopic : Fields := field "Name" 0 string <| field "FetchPartitions" 0 (array (struct FetchPartition)) done
def ForgottenTopic : Fields := field "Name" 7 string <| field "ForgottenPartitionIndexes" 7 (array int32) done
def FetchRequest : Fields :=
  field "ReplicaId" 0 int32 <| field "MaxWait" 0 int32 <| field "MinBytes" 0 int32 <| field "MaxBytes" 3 int32 <|
  field "IsolationLevel" 4 int8 <| field "SessionId" 7 int32 <| field "Epoch" 7 int32 <|
  field "Topics" 0 (array (struct FetchableTopic)) <| field "Forgotten" 7 (array (struct ForgottenTopic)) <|
  field "RackId" 11 string done

def AbortedTransaction : Fields := field "ProducerId" 4 int64 <| field "FirstOffset" 4 int64 done
def FetchablePartitionResponse : Fields :=
  field "PartitionIndex" 0 int32 <| field "ErrorCode" 0 int16 <| field "HighWatermark" 0 int64 <|
  field "LastStableOffset" 4 int64 <| field "LogStartOffset" 5 int64 <|
  nullable "Aborted" 4 4 (array (struct AbortedTransaction)) <| field "PreferredReadReplica" 11 int32 <|
  nullable "Records" 0 0 bytes done
def FetchableTopicResponse : Fields :=
  field "Name" 0 string <| field "Partitions" 0 (array (struct FetchablePartitionResponse)) done
def FetchResponse : Fields :=
  field "ThrottleTimeMs" 1 int32 <| field "ErrorCode" 7 int16 <| field "SessionId" 7 int32 <|
  field "Topics" 0 (array (struct FetchableTopicResponse)) done

/-! ### ListOffsets (2), versions 0-5 -/

def ListOffsetPartition : Fields :=
  field "PartitionIndex" 0 int32 <| field "CurrentLeaderEpoch" 4 int32 <| field "Timestamp" 0 int64 <|
  until_ "MaxNumOffsets" 0 0 int32 done
def ListOffsetTopic : Fields := field "Name" 0 string <| field "Partitions" 0 (array (struct ListOffsetPartition)) done
def ListOffsetRequest : Fields :=
  field "ReplicaId" 0 int32 <| field "IsolationLevel" 2 int8 <| field "Topics" 0 (array (struct ListOffsetTopic)) done

def ListOffsetPartitionResponse : Fields :=
  field "PartitionIndex" 0 int32 <| field "ErrorCode" 0 int16 <| until_ "OldStyleOffsets" 0 0 (array int64) <|
  field "Timestamp" 1 int64 <| field "Offset" 1 int64 <| field "LeaderEpoch" 4 int32 done
def ListOffsetTopicResponse : Fields :=
  field "Name" 0 string <| field "Partitions" 0 (array (struct ListOffsetPartitionResponse)) done
def ListOffsetResponse : Fields :=
  field "ThrottleTimeMs" 2 int32 <| field "Topics" 0 (array (struct ListOffsetTopicResponse)) done

/-! ### Metadata (3), versions 0-9, flexible from 9 -/

def MetadataRequestTopic : Fields := field "Name" 0 string done
def MetadataRequest : Fields :=
  nullable "Topics" 0 1 (array (struct MetadataRequestTopic)) <| field "AllowAutoTopicCreation" 4 bool <|
  field "IncludeClusterAuthorizedOperations" 8 bool <| field "IncludeTopicAuthorizedOperations" 8 bool done

def MetadataResponseBroker : Fields :=
  field "NodeId" 0 int32 <| field "Host" 0 string <| field "Port" 0 int32 <| nullable "Rack" 1 1 string done
def MetadataResponsePartition : Fields :=
  field "ErrorCode" 0 int16 <| field "PartitionIndex" 0 int32 <| field "LeaderId" 0 int32 <|
  field "LeaderEpoch" 7 int32 <| field "ReplicaNodes" 0 (array int32) <| field "IsrNodes" 0 (array int32) <|
  field "OfflineReplicas" 5 (array int32) done
def MetadataResponseTopic : Fields :=
  field "ErrorCode" 0 int16 <| field "Name" 0 string <| field "IsInternal" 1 bool <|
  field "Partitions" 0 (array (struct MetadataResponsePartition)) <| field "TopicAuthorizedOperations" 8 int32 done
def MetadataResponse : Fields :=
  field "ThrottleTimeMs" 3 int32 <| field "Brokers" 0 (array (struct MetadataResponseBroker)) <|
  nullable "ClusterId" 2 2 string <| field "ControllerId" 1 int32 <|
  field "Topics" 0 (array (struct MetadataResponseTopic)) <| field "ClusterAuthorizedOperations" 8 int32 done

/-! ### LeaderAndIsr (4), versions 0-4, flexible from 4 -/

def LeaderAndIsrPartitionState : Fields :=
  until_ "TopicName" 0 1 string <| field "PartitionIndex" 0 int32 <| field "ControllerEpoch" 0 int32 <|
  field "Leader" 0 int32 <| field "LeaderEpoch" 0 int32 <| field "Isr" 0 (array int32) <|
  field "ZkVersion" 0 int32 <| field "Replicas" 0 (array int32) <| field "AddingReplicas" 3 (array int32) <|
  field "RemovingReplicas" 3 (array int32) <| field "IsNew" 1 bool done
def LeaderAndIsrTopicState : Fields :=
  field "TopicName" 2 string <| field "PartitionStates" 2 (array (struct LeaderAndIsrPartitionState)) done
def LeaderAndIsrLiveLeader : Fields := field "BrokerId" 0 int32 <| field "HostName" 0 string <| field "Port" 0 int32 done
def LeaderAndIsrRequest : Fields :=
  field "ControllerId" 0 int32 <| field "ControllerEpoch" 0 int32 <| field "BrokerEpoch" 2 int64 <|
  until_ "UngroupedPartitionStates" 0 1 (array (struct LeaderAndIsrPartitionState)) <|
  field "TopicStates" 2 (array (struct LeaderAndIsrTopicState)) <|
  field "LiveLeaders" 0 (array (struct LeaderAndIsrLiveLeader)) done

def LeaderAndIsrPartitionError : Fields :=
  field "TopicName" 0 string <| field "PartitionIndex" 0 int32 <| field "ErrorCode" 0 int16 done
def LeaderAndIsrResponse : Fields :=
  field "ErrorCode" 0 int16 <| field "PartitionErrors" 0 (array (struct LeaderAndIsrPartitionError)) done

/-! ### StopReplica (5), versions 0-2, flexible from 2 -/

def StopReplicaPartitionV0 : Fields := until_ "TopicName" 0 0 string <| until_ "PartitionIndex" 0 0 int32 done
def StopReplicaTopic : Fields := field "Name" 1 string <| field "PartitionIndexes" 1 (array int32) done
def StopReplicaRequest : Fields :=
  field "ControllerId" 0 int32 <| field "ControllerEpoch" 0 int32 <| field "BrokerEpoch" 1 int64 <|
  field "DeletePartitions" 0 bool <| until_ "UngroupedPartitions" 0 0 (array (struct StopReplicaPartitionV0)) <|
  field "Topics" 1 (array (struct StopReplicaTopic)) done

def StopReplicaPartitionError : Fields :=
  field "TopicName" 0 string <| field "PartitionIndex" 0 int32 <| field "ErrorCode" 0 int16 done
def StopReplicaResponse : Fields :=
  field "ErrorCode" 0 int16 <| field "PartitionErrors" 0 (array (struct StopReplicaPartitionError)) done

/-! ### UpdateMetadata (6), versions 0-6, flexible from 6 -/

def UpdateMetadataPartitionState : Fields :=
  until_ "TopicName" 0 4 string <| field "PartitionIndex" 0 int32 <| field "ControllerEpoch" 0 int32 <|
  field "Leader" 0 int32 <| field "LeaderEpoch" 0 int32 <| field "Isr" 0 (array int32) <|
  field "ZkVersion" 0 int32 <| field "Replicas" 0 (array int32) <| field "OfflineReplicas" 4 (array int32) done
def UpdateMetadataTopicState : Fields :=
  field "TopicName" 5 string <| field "PartitionStates" 5 (array (struct UpdateMetadataPartitionState)) done
def UpdateMetadataEndpoint : Fields :=
  field "Port" 1 int32 <| field "Host" 1 string <| field "Listener" 3 string <| field "SecurityProtocol" 1 int16 done
def UpdateMetadataBroker : Fields :=
  field "Id" 0 int32 <| until_ "V0Host" 0 0 string <| until_ "V0Port" 0 0 int32 <|
  field "Endpoints" 1 (array (struct UpdateMetadataEndpoint)) <| nullable "Rack" 2 0 string done
def UpdateMetadataRequest : Fields :=
  field "ControllerId" 0 int32 <| field "ControllerEpoch" 0 int32 <| field "BrokerEpoch" 5 int64 <|
  until_ "UngroupedPartitionStates" 0 4 (array (struct UpdateMetadataPartitionState)) <|
  field "TopicStates" 5 (array (struct UpdateMetadataTopicState)) <|
  field "LiveBrokers" 0 (array (struct UpdateMetadataBroker)) done

def UpdateMetadataResponse : Fields := field "ErrorCode" 0 int16 done

/-! ### ControlledShutdown (7), versions 0-3, flexible from 3 -/

def ControlledShutdownRequest : Fields := field "BrokerId" 0 int32 <| field "BrokerEpoch" 2 int64 done

def RemainingPartition : Fields := field "TopicName" 0 string <| field "PartitionIndex" 0 int32 done
def ControlledShutdownResponse : Fields :=
  field "ErrorCode" 0 int16 <| field "RemainingPartitions" 0 (array (struct RemainingPartition)) done

/-! ### OffsetCommit (8), versions 0-8, flexible from 8 -/

def OffsetCommitRequestPartition : Fields :=
  field "PartitionIndex" 0 int32 <| field "CommittedOffset" 0 int64 <| field "CommittedLeaderEpoch" 6 int32 <|
  until_ "CommitTimestamp" 1 1 int64 <| nullable "CommittedMetadata" 0 0 string done
def OffsetCommitRequestTopic : Fields :=
  field "Name" 0 string <| field "Partitions" 0 (array (struct OffsetCommitRequestPartition)) done
def OffsetCommitRequest : Fields :=
  field "GroupId" 0 string <| field "GenerationId" 1 int32 <| field "MemberId" 1 string <|
  nullable "GroupInstanceId" 7 7 string <| until_ "RetentionTimeMs" 2 4 int64 <|
  field "Topics" 0 (array (struct OffsetCommitRequestTopic)) done

def OffsetCommitResponsePartition : Fields := field "PartitionIndex" 0 int32 <| field "ErrorCode" 0 int16 done
def OffsetCommitResponseTopic : Fields :=
  field "Name" 0 string <| field "Partitions" 0 (array (struct OffsetCommitResponsePartition)) done
def OffsetCommitResponse : Fields :=
  field "ThrottleTimeMs" 3 int32 <| field "Topics" 0 (array (struct OffsetCommitResponseTopic)) done

/-! ### OffsetFetch (9), versions 0-6, flexible from 6 -/

def OffsetFetchRequestTopic : Fields := field "Name" 0 string <| field "PartitionIndexes" 0 (array int32) done
def OffsetFetchRequest : Fields :=
  field "GroupId" 0 string <| nullable "Topics" 0 2 (array (struct OffsetFetchRequestTopic)) done

def OffsetFetchResponsePartition : Fields :=
  field "PartitionIndex" 0 int32 <| field "CommittedOffset" 0 int64 <| field "CommittedLeaderEpoch" 5 int32 <|
  nullable "Metadata" 0 0 string <| field "ErrorCode" 0 int16 done
def OffsetFetchResponseTopic : Fields :=
  field "Name" 0 string <| field "Partitions" 0 (array (struct OffsetFetchResponsePartition)) done
def OffsetFetchResponse : Fields :=
  field "ThrottleTimeMs" 3 int32 <| field "Topics" 0 (array (struct OffsetFetchResponseTopic)) <|
  field "ErrorCode" 2 int16 done

/-! ### FindCoordinator (10), versions 0-3, flexible from 3 -/

def FindCoordinatorRequest : Fields := field "Key" 0 string <| field "KeyType" 1 int8 done

def FindCoordinatorResponse : Fields :=
  field "ThrottleTimeMs" 1 int32 <| field "ErrorCode" 0 int16 <| nullable "ErrorMessage" 1 1 string <|
  field "NodeId" 0 int32 <| field "Host" 0 string <| field "Port" 0 int32 done

/-! ### JoinGroup (11), versions 0-6, flexible from 6 -/

def JoinGroupRequestProtocol : Fields := field "Name" 0 string <| field "Metadata" 0 bytes done
def JoinGroupRequest : Fields :=
  field "GroupId" 0 string <| field "SessionTimeoutMs" 0 int32 <| field "RebalanceTimeoutMs" 1 int32 <|
  field "MemberId" 0 string <| nullable "GroupInstanceId" 5 5 string <| field "ProtocolType" 0 string <|
  field "Protocols" 0 (array (struct JoinGroupRequestProtocol)) done

def JoinGroupResponseMember : Fields :=
  field "MemberId" 0 string <| nullable "GroupInstanceId" 5 5 string <| field "Metadata" 0 bytes done
def JoinGroupResponse : Fields :=
  field "ThrottleTimeMs" 2 int32 <| field "ErrorCode" 0 int16 <| field "GenerationId" 0 int32 <|
  field "ProtocolName" 0 string <| field "Leader" 0 string <| field "MemberId" 0 string <|
  field "Members" 0 (array (struct JoinGroupResponseMember)) done

/-! ### Heartbeat (12), versions 0-4, flexible from 4 -/

def HeartbeatRequest : Fields :=
  field "GroupId" 0 string <| field "GenerationId" 0 int32 <| field "MemberId" 0 string <|
  nullable "GroupInstanceId" 3 3 string done

def HeartbeatResponse : Fields := field "ThrottleTimeMs" 1 int32 <| field "ErrorCode" 0 int16 done

/-! ### LeaveGroup (13), versions 0-4, flexible from 4 -/

def MemberIdentity : Fields := field "MemberId" 3 string <| nullable "GroupInstanceId" 3 3 string done
def LeaveGroupRequest : Fields :=
  field "GroupId" 0 string <| until_ "MemberId" 0 2 string <| field "Members" 3 (array (struct MemberIdentity)) done

def MemberResponse : Fields :=
  field "MemberId" 3 string <| nullable "GroupInstanceId" 3 3 string <| field "ErrorCode" 3 int16 done
def LeaveGroupResponse : Fields :=
  field "ThrottleTimeMs" 1 int32 <| field "ErrorCode" 0 int16 <| field "Members" 3 (array (struct MemberResponse)) done

/-! ### SyncGroup (14), versions 0-4, flexible from 4 -/

def SyncGroupRequestAssignment : Fields := field "MemberId" 0 string <| field "Assignment" 0 bytes done
def SyncGroupRequest : Fields :=
  field "GroupId" 0 string <| field "GenerationId" 0 int32 <| field "MemberId" 0 string <|
  nullable "GroupInstanceId" 3 3 string <| field "Assignments" 0 (array (struct SyncGroupRequestAssignment)) done

def SyncGroupResponse : Fields := field "ThrottleTimeMs" 1 int32 <| field "ErrorCode" 0 int16 <| field "Assignment" 0 bytes done

/-! ### DescribeGroups (15), versions 0-5, flexible from 5 -/

def DescribeGroupsRequest : Fields := field "Groups" 0 (array string) <| field "IncludeAuthorizedOperations" 3 bool done

def DescribedGroupMember : Fields :=
  field "MemberId" 0 string <| nullable "GroupInstanceId" 4 4 string <| field "ClientId" 0 string <|
  field "ClientHost" 0 string <| field "MemberMetadata" 0 bytes <| field "MemberAssignment" 0 bytes done
def DescribedGroup : Fields :=
  field "ErrorCode" 0 int16 <| field "GroupId" 0 string <| field "GroupState" 0 string <|
  field "ProtocolType" 0 string <| field "ProtocolData" 0 string <|
  field "Members" 0 (array (struct DescribedGroupMember)) <| field "AuthorizedOperations" 3 int32 done
def DescribeGroupsResponse : Fields :=
  field "ThrottleTimeMs" 1 int32 <| field "Groups" 0 (array (struct DescribedGroup)) done

/-! ### ListGroups (16), versions 0-3, flexible from 3 -/

def ListGroupsRequest : Fields := done

def ListedGroup : Fields := field "GroupId" 0 string <| field "ProtocolType" 0 string done
def ListGroupsResponse : Fields :=
  field "ThrottleTimeMs" 1 int32 <| field "ErrorCode" 0 int16 <| field "Groups" 0 (array (struct ListedGroup)) done

/-! ### SaslHandshake (17), versions 0-1 -/

def SaslHandshakeRequest : Fields := field "Mechanism" 0 string done
def SaslHandshakeResponse : Fields := field "ErrorCode" 0 int16 <| field "Mechanisms" 0 (array string) done

/-! ### ApiVersions (18), versions 0-3, flexible from 3 -/

def ApiVersionsRequest : Fields := field "ClientSoftwareName" 3 string <| field "ClientSoftwareVersion" 3 string done

def ApiVersionsResponseKey : Fields := field "ApiKey" 0 int16 <| field "MinVersion" 0 int16 <| field "MaxVersion" 0 int16 done
def ApiVersionsResponse : Fields :=
  field "ErrorCode" 0 int16 <| field "ApiKeys" 0 (array (struct ApiVersionsResponseKey)) <| field "ThrottleTimeMs" 1 int32 done

/-! ### CreateTopics (19), versions 0-5, flexible from 5 -/

def CreatableReplicaAssignment : Fields := field "PartitionIndex" 0 int32 <| field "BrokerIds" 0 (array int32) done
def CreateableTopicConfig : Fields := field "Name" 0 string <| nullable "Value" 0 0 string done
def CreatableTopic : Fields :=
  field "Name" 0 string <| field "NumPartitions" 0 int32 <| field "ReplicationFactor" 0 int16 <|
  field "Assignments" 0 (array (struct CreatableReplicaAssignment)) <|
  field "Configs" 0 (array (struct CreateableTopicConfig)) done
def CreateTopicsRequest : Fields :=
  field "Topics" 0 (array (struct CreatableTopic)) <| field "timeoutMs" 0 int32 <| field "validateOnly" 1 bool done

def CreatableTopicConfigs : Fields :=
  field "Name" 5 string <| nullable "Value" 5 5 string <| field "ReadOnly" 5 bool <| field "ConfigSource" 5 int8 <|
  field "IsSensitive" 5 bool done
/-- At version 5 there is also a tagged field, the error code for the configuration. -/
def CreatableTopicResult : Fields :=
  field "Name" 0 string <| field "ErrorCode" 0 int16 <| nullable "ErrorMessage" 1 0 string <|
  field "NumPartitions" 5 int32 <| field "ReplicationFactor" 5 int16 <|
  nullable "Configs" 5 5 (array (struct CreatableTopicConfigs)) done
def CreateTopicsResponse : Fields :=
  field "ThrottleTimeMs" 2 int32 <| field "Topics" 0 (array (struct CreatableTopicResult)) done

/-! ### DeleteTopics (20), versions 0-4, flexible from 4 -/

def DeleteTopicsRequest : Fields := field "TopicNames" 0 (array string) <| field "TimeoutMs" 0 int32 done

def DeletableTopicResult : Fields := field "Name" 0 string <| field "ErrorCode" 0 int16 done
def DeleteTopicsResponse : Fields :=
  field "ThrottleTimeMs" 1 int32 <| field "Responses" 0 (array (struct DeletableTopicResult)) done

/-! ### DeleteRecords (21), versions 0-1 -/

def DeleteRecordsPartition : Fields := field "PartitionIndex" 0 int32 <| field "Offset" 0 int64 done
def DeleteRecordsTopic : Fields := field "Name" 0 string <| field "Partitions" 0 (array (struct DeleteRecordsPartition)) done
def DeleteRecordsRequest : Fields := field "Topics" 0 (array (struct DeleteRecordsTopic)) <| field "TimeoutMs" 0 int32 done

def DeleteRecordsPartitionResult : Fields :=
  field "PartitionIndex" 0 int32 <| field "LowWatermark" 0 int64 <| field "ErrorCode" 0 int16 done
def DeleteRecordsTopicResult : Fields :=
  field "Name" 0 string <| field "Partitions" 0 (array (struct DeleteRecordsPartitionResult)) done
def DeleteRecordsResponse : Fields :=
  field "ThrottleTimeMs" 0 int32 <| field "Topics" 0 (array (struct DeleteRecordsTopicResult)) done

/-! ### InitProducerId (22), versions 0-2, flexible from 2 -/

def InitProducerIdRequest : Fields := nullable "TransactionalId" 0 0 string <| field "TransactionTimeoutMs" 0 int32 done
def InitProducerIdResponse : Fields :=
  field "ThrottleTimeMs" 0 int32 <| field "ErrorCode" 0 int16 <| field "ProducerId" 0 int64 <| field "ProducerEpoch" 0 int16 done

/-! ### OffsetForLeaderEpoch (23), versions 0-3 -/

def OffsetForLeaderPartition : Fields :=
  field "PartitionIndex" 0 int32 <| field "CurrentLeaderEpoch" 2 int32 <| field "LeaderEpoch" 0 int32 done
def OffsetForLeaderTopic : Fields := field "Name" 0 string <| field "Partitions" 0 (array (struct OffsetForLeaderPartition)) done
def OffsetForLeaderEpochRequest : Fields :=
  field "ReplicaId" 3 int32 <| field "Topics" 0 (array (struct OffsetForLeaderTopic)) done

def OffsetForLeaderPartitionResult : Fields :=
  field "ErrorCode" 0 int16 <| field "PartitionIndex" 0 int32 <| field "LeaderEpoch" 1 int32 <| field "EndOffset" 0 int64 done
def OffsetForLeaderTopicResult : Fields :=
  field "Name" 0 string <| field "Partitions" 0 (array (struct OffsetForLeaderPartitionResult)) done
def OffsetForLeaderEpochResponse : Fields :=
  field "ThrottleTimeMs" 2 int32 <| field "Topics" 0 (array (struct OffsetForLeaderTopicResult)) done

/-! ### AddPartitionsToTxn (24), versions 0-1 -/

def AddPartitionsToTxnTopic : Fields := field "Name" 0 string <| field "Partitions" 0 (array int32) done
def AddPartitionsToTxnRequest : Fields :=
  field "TransactionalId" 0 string <| field "ProducerId" 0 int64 <| field "ProducerEpoch" 0 int16 <|
  field "Topics" 0 (array (struct AddPartitionsToTxnTopic)) done

def AddPartitionsToTxnPartitionResult : Fields := field "PartitionIndex" 0 int32 <| field "ErrorCode" 0 int16 done
def AddPartitionsToTxnTopicResult : Fields :=
  field "Name" 0 string <| field "Results" 0 (array (struct AddPartitionsToTxnPartitionResult)) done
def AddPartitionsToTxnResponse : Fields :=
  field "ThrottleTimeMs" 0 int32 <| field "Results" 0 (array (struct AddPartitionsToTxnTopicResult)) done

/-! ### AddOffsetsToTxn (25), versions 0-1 -/

def AddOffsetsToTxnRequest : Fields :=
  field "TransactionalId" 0 string <| field "ProducerId" 0 int64 <| field "ProducerEpoch" 0 int16 <| field "GroupId" 0 string done
def AddOffsetsToTxnResponse : Fields := field "ThrottleTimeMs" 0 int32 <| field "ErrorCode" 0 int16 done

/-! ### EndTxn (26), versions 0-1 -/

def EndTxnRequest : Fields :=
  field "TransactionalId" 0 string <| field "ProducerId" 0 int64 <| field "ProducerEpoch" 0 int16 <| field "Committed" 0 bool done
def EndTxnResponse : Fields := field "ThrottleTimeMs" 0 int32 <| field "ErrorCode" 0 int16 done

/-! ### WriteTxnMarkers (27), version 0 -/

def WritableTxnMarkerTopic : Fields := field "Name" 0 string <| field "PartitionIndexes" 0 (array int32) done
def WritableTxnMarker : Fields :=
  field "ProducerId" 0 int64 <| field "ProducerEpoch" 0 int16 <| field "TransactionResult" 0 bool <|
  field "Topics" 0 (array (struct WritableTxnMarkerTopic)) <| field "CoordinatorEpoch" 0 int32 done
def WriteTxnMarkersRequest : Fields := field "Markers" 0 (array (struct WritableTxnMarker)) done

def WritableTxnMarkerPartitionResult : Fields := field "PartitionIndex" 0 int32 <| field "ErrorCode" 0 int16 done
def WritableTxnMarkerTopicResult : Fields :=
  field "Name" 0 string <| field "Partitions" 0 (array (struct WritableTxnMarkerPartitionResult)) done
def WritableTxnMarkerResult : Fields :=
  field "ProducerId" 0 int64 <| field "Topics" 0 (array (struct WritableTxnMarkerTopicResult)) done
def WriteTxnMarkersResponse : Fields := field "Markers" 0 (array (struct WritableTxnMarkerResult)) done

/-! ### TxnOffsetCommit (28), versions 0-2 -/

def TxnOffsetCommitRequestPartition : Fields :=
  field "PartitionIndex" 0 int32 <| field "CommittedOffset" 0 int64 <| field "CommittedLeaderEpoch" 2 int32 <|
  nullable "CommittedMetadata" 0 0 string done
def TxnOffsetCommitRequestTopic : Fields :=
  field "Name" 0 string <| field "Partitions" 0 (array (struct TxnOffsetCommitRequestPartition)) done
def TxnOffsetCommitRequest : Fields :=
  field "TransactionalId" 0 string <| field "GroupId" 0 string <| field "ProducerId" 0 int64 <|
  field "ProducerEpoch" 0 int16 <| field "Topics" 0 (array (struct TxnOffsetCommitRequestTopic)) done

def TxnOffsetCommitResponsePartition : Fields := field "PartitionIndex" 0 int32 <| field "ErrorCode" 0 int16 done
def TxnOffsetCommitResponseTopic : Fields :=
  field "Name" 0 string <| field "Partitions" 0 (array (struct TxnOffsetCommitResponsePartition)) done
def TxnOffsetCommitResponse : Fields :=
  field "ThrottleTimeMs" 0 int32 <| field "Topics" 0 (array (struct TxnOffsetCommitResponseTopic)) done

/-! ### DescribeAcls (29), versions 0-1 -/

def DescribeAclsRequest : Fields :=
  field "ResourceType" 0 int8 <| nullable "ResourceNameFilter" 0 0 string <| field "ResourcePatternType" 1 int8 <|
  nullable "PrincipalFilter" 0 0 string <| nullable "HostFilter" 0 0 string <| field "Operation" 0 int8 <|
  field "PermissionType" 0 int8 done

def AclDescription : Fields :=
  field "Principal" 0 string <| field "Host" 0 string <| field "Operation" 0 int8 <| field "PermissionType" 0 int8 done
def DescribeAclsResource : Fields :=
  field "Type" 0 int8 <| field "Name" 0 string <| field "PatternType" 1 int8 <|
  field "Acls" 0 (array (struct AclDescription)) done
def DescribeAclsResponse : Fields :=
  field "ThrottleTimeMs" 0 int32 <| field "ErrorCode" 0 int16 <| nullable "ErrorMessage" 0 0 string <|
  field "Resources" 0 (array (struct DescribeAclsResource)) done

/-! ### CreateAcls (30), versions 0-1 -/

def CreatableAcl : Fields :=
  field "ResourceType" 0 int8 <| field "ResourceName" 0 string <| field "ResourcePatternType" 1 int8 <|
  field "Principal" 0 string <| field "Host" 0 string <| field "Operation" 0 int8 <| field "PermissionType" 0 int8 done
def CreateAclsRequest : Fields := field "Creations" 0 (array (struct CreatableAcl)) done

def CreatableAclResult : Fields := field "ErrorCode" 0 int16 <| nullable "ErrorMessage" 0 0 string done
def CreateAclsResponse : Fields := field "ThrottleTimeMs" 0 int32 <| field "Results" 0 (array (struct CreatableAclResult)) done

/-! ### DeleteAcls (31), versions 0-1 -/

def DeleteAclsFilter : Fields :=
  field "ResourceTypeFilter" 0 int8 <| nullable "ResourceNameFilter" 0 0 string <| field "PatternTypeFilter" 1 int8 <|
  nullable "PrincipalFilter" 0 0 string <| nullable "HostFilter" 0 0 string <| field "Operation" 0 int8 <|
  field "PermissionType" 0 int8 done
def DeleteAclsRequest : Fields := field "Filters" 0 (array (struct DeleteAclsFilter)) done

def DeleteAclsMatchingAcl : Fields :=
  field "ErrorCode" 0 int16 <| nullable "ErrorMessage" 0 0 string <| field "ResourceType" 0 int8 <|
  field "ResourceName" 0 string <| field "PatternType" 1 int8 <| field "Principal" 0 string <| field "Host" 0 string <|
  field "Operation" 0 int8 <| field "PermissionType" 0 int8 done
def DeleteAclsFilterResult : Fields :=
  field "ErrorCode" 0 int16 <| nullable "ErrorMessage" 0 0 string <|
  field "MatchingAcls" 0 (array (struct DeleteAclsMatchingAcl)) done
def DeleteAclsResponse : Fields :=
  field "ThrottleTimeMs" 0 int32 <| field "FilterResults" 0 (array (struct DeleteAclsFilterResult)) done

/-! ### DescribeConfigs (32), versions 0-2 -/

def DescribeConfigsResource : Fields :=
  field "ResourceType" 0 int8 <| field "ResourceName" 0 string <| nullable "ConfigurationKeys" 0 0 (array string) done
def DescribeConfigsRequest : Fields :=
  field "Resources" 0 (array (struct DescribeConfigsResource)) <| field "IncludeSynoyms" 1 bool done

def DescribeConfigsSynonym : Fields :=
  field "Name" 1 string <| nullable "Value" 1 0 string <| field "Source" 1 int8 done
def DescribeConfigsResourceResult : Fields :=
  field "Name" 0 string <| nullable "Value" 0 0 string <| field "ReadOnly" 0 bool <| until_ "IsDefault" 0 0 bool <|
  field "ConfigSource" 1 int8 <| field "IsSensitive" 0 bool <| field "Synonyms" 1 (array (struct DescribeConfigsSynonym)) done
def DescribeConfigsResult : Fields :=
  field "ErrorCode" 0 int16 <| nullable "ErrorMessage" 0 0 string <| field "ResourceType" 0 int8 <|
  field "ResourceName" 0 string <| field "Configs" 0 (array (struct DescribeConfigsResourceResult)) done
def DescribeConfigsResponse : Fields :=
  field "ThrottleTimeMs" 0 int32 <| field "Results" 0 (array (struct DescribeConfigsResult)) done

/-! ### AlterConfigs (33), versions 0-1 -/

def AlterableConfig : Fields := field "Name" 0 string <| nullable "Value" 0 0 string done
def AlterConfigsResource : Fields :=
  field "ResourceType" 0 int8 <| field "ResourceName" 0 string <| field "Configs" 0 (array (struct AlterableConfig)) done
def AlterConfigsRequest : Fields := field "Resources" 0 (array (struct AlterConfigsResource)) <| field "ValidateOnly" 0 bool done

def AlterConfigsResourceResponse : Fields :=
  field "ErrorCode" 0 int16 <| nullable "ErrorMessage" 0 0 string <| field "ResourceType" 0 int8 <| field "ResourceName" 0 string done
def AlterConfigsResponse : Fields :=
  field "ThrottleTimeMs" 0 int32 <| field "Responses" 0 (array (struct AlterConfigsResourceResponse)) done

/-! ### AlterReplicaLogDirs (34), versions 0-1 -/

def AlterReplicaLogDirTopic : Fields := field "Name" 0 string <| field "Partitions" 0 (array int32) done
def AlterReplicaLogDir : Fields := field "Path" 0 string <| field "Topics" 0 (array (struct AlterReplicaLogDirTopic)) done
def AlterReplicaLogDirsRequest : Fields := field "Dirs" 0 (array (struct AlterReplicaLogDir)) done

def AlterReplicaLogDirPartitionResult : Fields := field "PartitionIndex" 0 int32 <| field "ErrorCode" 0 int16 done
def AlterReplicaLogDirTopicResult : Fields :=
  field "TopicName" 0 string <| field "Partitions" 0 (array (struct AlterReplicaLogDirPartitionResult)) done
def AlterReplicaLogDirsResponse : Fields :=
  field "ThrottleTimeMs" 0 int32 <| field "Results" 0 (array (struct AlterReplicaLogDirTopicResult)) done

/-! ### DescribeLogDirs (35), versions 0-1 -/

def DescribableLogDirTopic : Fields := field "Topic" 0 string <| field "PartitionIndex" 0 (array int32) done
def DescribeLogDirsRequest : Fields := nullable "Topics" 0 0 (array (struct DescribableLogDirTopic)) done

def DescribeLogDirsPartition : Fields :=
  field "PartitionIndex" 0 int32 <| field "PartitionSize" 0 int64 <| field "OffsetLag" 0 int64 <| field "IsFutureKey" 0 bool done
def DescribeLogDirsTopic : Fields := field "Name" 0 string <| field "Partitions" 0 (array (struct DescribeLogDirsPartition)) done
def DescribeLogDirsResult : Fields :=
  field "ErrorCode" 0 int16 <| field "LogDir" 0 string <| field "Topics" 0 (array (struct DescribeLogDirsTopic)) done
def DescribeLogDirsResponse : Fields :=
  field "ThrottleTimeMs" 0 int32 <| field "Results" 0 (array (struct DescribeLogDirsResult)) done

/-! ### SaslAuthenticate (36), versions 0-1 -/

def SaslAuthenticateRequest : Fields := field "AuthBytes" 0 bytes done
def SaslAuthenticateResponse : Fields :=
  field "ErrorCode" 0 int16 <| nullable "ErrorMessage" 0 0 string <| field "AuthBytes" 0 bytes <|
  field "SessionLifetimeMs" 1 int64 done

/-! ### CreatePartitions (37), versions 0-1 -/

def CreatePartitionsAssignment : Fields := field "BrokerIds" 0 (array int32) done
def CreatePartitionsTopic : Fields :=
  field "Name" 0 string <| field "Count" 0 int32 <| nullable "Assignments" 0 0 (array (struct CreatePartitionsAssignment)) done
def CreatePartitionsRequest : Fields :=
  field "Topics" 0 (array (struct CreatePartitionsTopic)) <| field "TimeoutMs" 0 int32 <| field "ValidateOnly" 0 bool done

def CreatePartitionsTopicResult : Fields :=
  field "Name" 0 string <| field "ErrorCode" 0 int16 <| nullable "ErrorMessage" 0 0 string done
def CreatePartitionsResponse : Fields :=
  field "ThrottleTimeMs" 0 int32 <| field "Results" 0 (array (struct CreatePartitionsTopicResult)) done

/-! ### CreateDelegationToken (38), versions 0-2, flexible from 2 -/

def CreatableRenewers : Fields := field "PrincipalType" 0 string <| field "PrincipalName" 0 string done
def CreateDelegationTokenRequest : Fields :=
  field "Renewers" 0 (array (struct CreatableRenewers)) <| field "MaxLifetimeMs" 0 int64 done
def CreateDelegationTokenResponse : Fields :=
  field "ErrorCode" 0 int16 <| field "PrincipalType" 0 string <| field "PrincipalName" 0 string <|
  field "IssueTimestampMs" 0 int64 <| field "ExpiryTimestampMs" 0 int64 <| field "MaxTimestampMs" 0 int64 <|
  field "TokenId" 0 string <| field "Hmac" 0 bytes <| field "ThrottleTimeMs" 0 int32 done

/-! ### RenewDelegationToken (39), versions 0-1 -/

def RenewDelegationTokenRequest : Fields := field "Hmac" 0 bytes <| field "RenewPeriodMs" 0 int64 done
def RenewDelegationTokenResponse : Fields :=
  field "ErrorCode" 0 int16 <| field "ExpiryTimestampMs" 0 int64 <| field "ThrottleTimeMs" 0 int32 done

/-! ### ExpireDelegationToken (40), versions 0-1 -/

def ExpireDelegationTokenRequest : Fields := field "Hmac" 0 bytes <| field "ExpiryTimePeriodMs" 0 int64 done
def ExpireDelegationTokenResponse : Fields :=
  field "ErrorCode" 0 int16 <| field "ExpiryTimestampMs" 0 int64 <| field "ThrottleTimeMs" 0 int32 done

/-! ### DescribeDelegationToken (41), versions 0-1 -/

def DescribeDelegationTokenOwner : Fields := field "PrincipalType" 0 string <| field "PrincipalName" 0 string done
def DescribeDelegationTokenRequest : Fields := nullable "Owners" 0 0 (array (struct DescribeDelegationTokenOwner)) done

def DescribedDelegationTokenRenewer : Fields := field "PrincipalType" 0 string <| field "PrincipalName" 0 string done
def DescribedDelegationToken : Fields :=
  field "PrincipalType" 0 string <| field "PrincipalName" 0 string <| field "IssueTimestamp" 0 int64 <|
  field "ExpiryTimestamp" 0 int64 <| field "MaxTimestamp" 0 int64 <| field "TokenId" 0 string <|
  field "Hmac" 0 bytes <| field "Renewers" 0 (array (struct DescribedDelegationTokenRenewer)) done
def DescribeDelegationTokenResponse : Fields :=
  field "ErrorCode" 0 int16 <| field "Tokens" 0 (array (struct DescribedDelegationToken)) <| field "ThrottleTimeMs" 0 int32 done

/-! ### DeleteGroups (42), versions 0-2, flexible from 2 -/

def DeleteGroupsRequest : Fields := field "GroupsNames" 0 (array string) done

def DeletableGroupResult : Fields := field "GroupId" 0 string <| field "ErrorCode" 0 int16 done
def DeleteGroupsResponse : Fields := field "ThrottleTimeMs" 0 int32 <| field "Results" 0 (array (struct DeletableGroupResult)) done

/-! ### ElectLeaders (43), versions 0-2, flexible from 2 -/

def TopicPartitions : Fields := field "Topic" 0 string <| field "PartitionId" 0 (array int32) done
def ElectLeadersRequest : Fields :=
  field "ElectionType" 1 int8 <| nullable "TopicPartitions" 0 0 (array (struct TopicPartitions)) <| field "TimeoutMs" 0 int32 done

def PartitionResult : Fields := field "PartitionId" 0 int32 <| field "ErrorCode" 0 int16 <| nullable "ErrorMessage" 0 0 string done
def ReplicaElectionResult : Fields := field "Topic" 0 string <| field "PartitionResult" 0 (array (struct PartitionResult)) done
def ElectLeadersResponse : Fields :=
  field "ThrottleTimeMs" 0 int32 <| field "ErrorCode" 1 int16 <|
  field "ReplicaElectionResults" 0 (array (struct ReplicaElectionResult)) done

/-! ### IncrementalAlterConfigs (44), versions 0-1, flexible from 1 -/

def IncrementalAlterableConfig : Fields :=
  field "Name" 0 string <| field "ConfigOperation" 0 int8 <| nullable "Value" 0 0 string done
def IncrementalAlterConfigsResource : Fields :=
  field "ResourceType" 0 int8 <| field "ResourceName" 0 string <|
  field "Configs" 0 (array (struct IncrementalAlterableConfig)) done
def IncrementalAlterConfigsRequest : Fields :=
  field "Resources" 0 (array (struct IncrementalAlterConfigsResource)) <| field "ValidateOnly" 0 bool done

def IncrementalAlterConfigsResponse : Fields :=
  field "ThrottleTimeMs" 0 int32 <| field "Responses" 0 (array (struct AlterConfigsResourceResponse)) done

/-! ### AlterPartitionReassignments (45), version 0, flexible -/

def ReassignablePartition : Fields := field "PartitionIndex" 0 int32 <| nullable "Replicas" 0 0 (array int32) done
def ReassignableTopic : Fields := field "Name" 0 string <| field "Partitions" 0 (array (struct ReassignablePartition)) done
def AlterPartitionReassignmentsRequest : Fields :=
  field "TimeoutMs" 0 int32 <| field "Topics" 0 (array (struct ReassignableTopic)) done

def ReassignablePartitionResponse : Fields :=
  field "PartitionIndex" 0 int32 <| field "ErrorCode" 0 int16 <| nullable "ErrorMessage" 0 0 string done
def ReassignableTopicResponse : Fields :=
  field "Name" 0 string <| field "Partitions" 0 (array (struct ReassignablePartitionResponse)) done
def AlterPartitionReassignmentsResponse : Fields :=
  field "ThrottleTimeMs" 0 int32 <| field "ErrorCode" 0 int16 <| nullable "ErrorMessage" 0 0 string <|
  field "Responses" 0 (array (struct ReassignableTopicResponse)) done

/-! ### ListPartitionReassignments (46), version 0, flexible -/

def ListPartitionReassignmentsTopics : Fields := field "Name" 0 string <| field "PartitionIndexes" 0 (array int32) done
def ListPartitionReassignmentsRequest : Fields :=
  field "TimeoutMs" 0 int32 <| nullable "Topics" 0 0 (array (struct ListPartitionReassignmentsTopics)) done

def OngoingPartitionReassignment : Fields :=
  field "PartitionIndex" 0 int32 <| field "Replicas" 0 (array int32) <| field "AddingReplicas" 0 (array int32) <|
  field "RemovingReplicas" 0 (array int32) done
def OngoingTopicReassignment : Fields :=
  field "Name" 0 string <| field "Partitions" 0 (array (struct OngoingPartitionReassignment)) done
def ListPartitionReassignmentsResponse : Fields :=
  field "ThrottleTimeMs" 0 int32 <| field "ErrorCode" 0 int16 <| nullable "ErrorMessage" 0 0 string <|
  field "Topics" 0 (array (struct OngoingTopicReassignment)) done

/-! ### OffsetDelete (47), version 0 -/

def OffsetDeleteRequestPartition : Fields := field "PartitionIndex" 0 int32 done
def OffsetDeleteRequestTopic : Fields :=
  field "Name" 0 string <| field "Partitions" 0 (array (struct OffsetDeleteRequestPartition)) done
def OffsetDeleteRequest : Fields := field "GroupId" 0 string <| field "Topics" 0 (array (struct OffsetDeleteRequestTopic)) done

def OffsetDeleteResponsePartition : Fields := field "PartitionIndex" 0 int32 <| field "ErrorCode" 0 int16 done
def OffsetDeleteResponseTopic : Fields :=
  field "Name" 0 string <| field "Partitions" 0 (array (struct OffsetDeleteResponsePartition)) done
def OffsetDeleteResponse : Fields :=
  field "ErrorCode" 0 int16 <| field "ThrottleTimeMs" 0 int32 <| field "Topics" 0 (array (struct OffsetDeleteResponseTopic)) done

end Kafka.Protocol
