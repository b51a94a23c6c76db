import Verif.Gen.All
import Verif.Gen.Broker
/-!
Generated by tools/gen_broker.py: the APIs of the protocol and, for each, its key, the
versions documented for its request type in message/messages.gen.go, its message types
and the method of `Broker` that calls it.
-/
namespace Kafka

open Msg

/-- The APIs of the protocol. -/
inductive Api where
  | Produce
  | Fetch
  | ListOffset
  | Metadata
  | LeaderAndIsr
  | StopReplica
  | UpdateMetadata
  | ControlledShutdown
  | OffsetCommit
  | OffsetFetch
  | FindCoordinator
  | JoinGroup
  | Heartbeat
  | LeaveGroup
  | SyncGroup
  | DescribeGroups
  | ListGroups
  | SaslHandshake
  | ApiVersions
  | CreateTopics
  | DeleteTopics
  | DeleteRecords
  | InitProducerId
  | OffsetForLeaderEpoch
  | AddPartitionsToTxn
  | AddOffsetsToTxn
  | EndTxn
  | WriteTxnMarkers
  | TxnOffsetCommit
  | DescribeAcls
  | CreateAcls
  | DeleteAcls
  | DescribeConfigs
  | AlterConfigs
  | AlterReplicaLogDirs
  | DescribeLogDirs
  | SaslAuthenticate
  | CreatePartitions
  | CreateDelegationToken
  | RenewDelegationToken
  | ExpireDelegationToken
  | DescribeDelegationToken
  | DeleteGroups
  | ElectLeaders
  | IncrementalAlterConfigs
  | AlterPartitionReassignments
  | ListPartitionReassignments
  | OffsetDelete
deriving DecidableEq, Repr

namespace Api

/-- All APIs. -/
def all : List Api :=
  [.Produce,
   .Fetch,
   .ListOffset,
   .Metadata,
   .LeaderAndIsr,
   .StopReplica,
   .UpdateMetadata,
   .ControlledShutdown,
   .OffsetCommit,
   .OffsetFetch,
   .FindCoordinator,
   .JoinGroup,
   .Heartbeat,
   .LeaveGroup,
   .SyncGroup,
   .DescribeGroups,
   .ListGroups,
   .SaslHandshake,
   .ApiVersions,
   .CreateTopics,
   .DeleteTopics,
   .DeleteRecords,
   .InitProducerId,
   .OffsetForLeaderEpoch,
   .AddPartitionsToTxn,
   .AddOffsetsToTxn,
   .EndTxn,
   .WriteTxnMarkers,
   .TxnOffsetCommit,
   .DescribeAcls,
   .CreateAcls,
   .DeleteAcls,
   .DescribeConfigs,
   .AlterConfigs,
   .AlterReplicaLogDirs,
   .DescribeLogDirs,
   .SaslAuthenticate,
   .CreatePartitions,
   .CreateDelegationToken,
   .RenewDelegationToken,
   .ExpireDelegationToken,
   .DescribeDelegationToken,
   .DeleteGroups,
   .ElectLeaders,
   .IncrementalAlterConfigs,
   .AlterPartitionReassignments,
   .ListPartitionReassignments,
   .OffsetDelete]

theorem mem_all (a : Api) : a ∈ all := by cases a <;> decide

/-- The key of an API (https://kafka.apache.org/protocol#protocol_api_keys; also in the
comments of message/messages.gen.go). -/
def key : Api → Int16
  | .Produce => 0
  | .Fetch => 1
  | .ListOffset => 2
  | .Metadata => 3
  | .LeaderAndIsr => 4
  | .StopReplica => 5
  | .UpdateMetadata => 6
  | .ControlledShutdown => 7
  | .OffsetCommit => 8
  | .OffsetFetch => 9
  | .FindCoordinator => 10
  | .JoinGroup => 11
  | .Heartbeat => 12
  | .LeaveGroup => 13
  | .SyncGroup => 14
  | .DescribeGroups => 15
  | .ListGroups => 16
  | .SaslHandshake => 17
  | .ApiVersions => 18
  | .CreateTopics => 19
  | .DeleteTopics => 20
  | .DeleteRecords => 21
  | .InitProducerId => 22
  | .OffsetForLeaderEpoch => 23
  | .AddPartitionsToTxn => 24
  | .AddOffsetsToTxn => 25
  | .EndTxn => 26
  | .WriteTxnMarkers => 27
  | .TxnOffsetCommit => 28
  | .DescribeAcls => 29
  | .CreateAcls => 30
  | .DeleteAcls => 31
  | .DescribeConfigs => 32
  | .AlterConfigs => 33
  | .AlterReplicaLogDirs => 34
  | .DescribeLogDirs => 35
  | .SaslAuthenticate => 36
  | .CreatePartitions => 37
  | .CreateDelegationToken => 38
  | .RenewDelegationToken => 39
  | .ExpireDelegationToken => 40
  | .DescribeDelegationToken => 41
  | .DeleteGroups => 42
  | .ElectLeaders => 43
  | .IncrementalAlterConfigs => 44
  | .AlterPartitionReassignments => 45
  | .ListPartitionReassignments => 46
  | .OffsetDelete => 47

/-- The highest version this library implements, as documented by the comment
`Versions: 0-n` on the request and the response type in message/messages.gen.go.
The lowest is 0 for all. -/
def maxVersion : Api → Int16
  | .Produce => 8
  | .Fetch => 11
  | .ListOffset => 5
  | .Metadata => 9
  | .LeaderAndIsr => 4
  | .StopReplica => 2
  | .UpdateMetadata => 6
  | .ControlledShutdown => 3
  | .OffsetCommit => 8
  | .OffsetFetch => 6
  | .FindCoordinator => 3
  | .JoinGroup => 6
  | .Heartbeat => 4
  | .LeaveGroup => 4
  | .SyncGroup => 4
  | .DescribeGroups => 5
  | .ListGroups => 3
  | .SaslHandshake => 1
  | .ApiVersions => 3
  | .CreateTopics => 5
  | .DeleteTopics => 4
  | .DeleteRecords => 1
  | .InitProducerId => 2
  | .OffsetForLeaderEpoch => 3
  | .AddPartitionsToTxn => 1
  | .AddOffsetsToTxn => 1
  | .EndTxn => 1
  | .WriteTxnMarkers => 0
  | .TxnOffsetCommit => 2
  | .DescribeAcls => 1
  | .CreateAcls => 1
  | .DeleteAcls => 1
  | .DescribeConfigs => 2
  | .AlterConfigs => 1
  | .AlterReplicaLogDirs => 1
  | .DescribeLogDirs => 1
  | .SaslAuthenticate => 1
  | .CreatePartitions => 1
  | .CreateDelegationToken => 2
  | .RenewDelegationToken => 1
  | .ExpireDelegationToken => 1
  | .DescribeDelegationToken => 1
  | .DeleteGroups => 2
  | .ElectLeaders => 2
  | .IncrementalAlterConfigs => 1
  | .AlterPartitionReassignments => 0
  | .ListPartitionReassignments => 0
  | .OffsetDelete => 0

/-- The request type. -/
def req : Api → MsgType
  | .Produce => ProduceRequest.type
  | .Fetch => FetchRequest.type
  | .ListOffset => ListOffsetRequest.type
  | .Metadata => MetadataRequest.type
  | .LeaderAndIsr => LeaderAndIsrRequest.type
  | .StopReplica => StopReplicaRequest.type
  | .UpdateMetadata => UpdateMetadataRequest.type
  | .ControlledShutdown => ControlledShutdownRequest.type
  | .OffsetCommit => OffsetCommitRequest.type
  | .OffsetFetch => OffsetFetchRequest.type
  | .FindCoordinator => FindCoordinatorRequest.type
  | .JoinGroup => JoinGroupRequest.type
  | .Heartbeat => HeartbeatRequest.type
  | .LeaveGroup => LeaveGroupRequest.type
  | .SyncGroup => SyncGroupRequest.type
  | .DescribeGroups => DescribeGroupsRequest.type
  | .ListGroups => ListGroupsRequest.type
  | .SaslHandshake => SaslHandshakeRequest.type
  | .ApiVersions => ApiVersionsRequest.type
  | .CreateTopics => CreateTopicsRequest.type
  | .DeleteTopics => DeleteTopicsRequest.type
  | .DeleteRecords => DeleteRecordsRequest.type
  | .InitProducerId => InitProducerIdRequest.type
  | .OffsetForLeaderEpoch => OffsetForLeaderEpochRequest.type
  | .AddPartitionsToTxn => AddPartitionsToTxnRequest.type
  | .AddOffsetsToTxn => AddOffsetsToTxnRequest.type
  | .EndTxn => EndTxnRequest.type
  | .WriteTxnMarkers => WriteTxnMarkersRequest.type
  | .TxnOffsetCommit => TxnOffsetCommitRequest.type
  | .DescribeAcls => DescribeAclsRequest.type
  | .CreateAcls => CreateAclsRequest.type
  | .DeleteAcls => DeleteAclsRequest.type
  | .DescribeConfigs => DescribeConfigsRequest.type
  | .AlterConfigs => AlterConfigsRequest.type
  | .AlterReplicaLogDirs => AlterReplicaLogDirsRequest.type
  | .DescribeLogDirs => DescribeLogDirsRequest.type
  | .SaslAuthenticate => SaslAuthenticateRequest.type
  | .CreatePartitions => CreatePartitionsRequest.type
  | .CreateDelegationToken => CreateDelegationTokenRequest.type
  | .RenewDelegationToken => RenewDelegationTokenRequest.type
  | .ExpireDelegationToken => ExpireDelegationTokenRequest.type
  | .DescribeDelegationToken => DescribeDelegationTokenRequest.type
  | .DeleteGroups => DeleteGroupsRequest.type
  | .ElectLeaders => ElectLeadersRequest.type
  | .IncrementalAlterConfigs => IncrementalAlterConfigsRequest.type
  | .AlterPartitionReassignments => AlterPartitionReassignmentsRequest.type
  | .ListPartitionReassignments => ListPartitionReassignmentsRequest.type
  | .OffsetDelete => OffsetDeleteRequest.type

/-- The response type. -/
def resp : Api → MsgType
  | .Produce => ProduceResponse.type
  | .Fetch => FetchResponse.type
  | .ListOffset => ListOffsetResponse.type
  | .Metadata => MetadataResponse.type
  | .LeaderAndIsr => LeaderAndIsrResponse.type
  | .StopReplica => StopReplicaResponse.type
  | .UpdateMetadata => UpdateMetadataResponse.type
  | .ControlledShutdown => ControlledShutdownResponse.type
  | .OffsetCommit => OffsetCommitResponse.type
  | .OffsetFetch => OffsetFetchResponse.type
  | .FindCoordinator => FindCoordinatorResponse.type
  | .JoinGroup => JoinGroupResponse.type
  | .Heartbeat => HeartbeatResponse.type
  | .LeaveGroup => LeaveGroupResponse.type
  | .SyncGroup => SyncGroupResponse.type
  | .DescribeGroups => DescribeGroupsResponse.type
  | .ListGroups => ListGroupsResponse.type
  | .SaslHandshake => SaslHandshakeResponse.type
  | .ApiVersions => ApiVersionsResponse.type
  | .CreateTopics => CreateTopicsResponse.type
  | .DeleteTopics => DeleteTopicsResponse.type
  | .DeleteRecords => DeleteRecordsResponse.type
  | .InitProducerId => InitProducerIdResponse.type
  | .OffsetForLeaderEpoch => OffsetForLeaderEpochResponse.type
  | .AddPartitionsToTxn => AddPartitionsToTxnResponse.type
  | .AddOffsetsToTxn => AddOffsetsToTxnResponse.type
  | .EndTxn => EndTxnResponse.type
  | .WriteTxnMarkers => WriteTxnMarkersResponse.type
  | .TxnOffsetCommit => TxnOffsetCommitResponse.type
  | .DescribeAcls => DescribeAclsResponse.type
  | .CreateAcls => CreateAclsResponse.type
  | .DeleteAcls => DeleteAclsResponse.type
  | .DescribeConfigs => DescribeConfigsResponse.type
  | .AlterConfigs => AlterConfigsResponse.type
  | .AlterReplicaLogDirs => AlterReplicaLogDirsResponse.type
  | .DescribeLogDirs => DescribeLogDirsResponse.type
  | .SaslAuthenticate => SaslAuthenticateResponse.type
  | .CreatePartitions => CreatePartitionsResponse.type
  | .CreateDelegationToken => CreateDelegationTokenResponse.type
  | .RenewDelegationToken => RenewDelegationTokenResponse.type
  | .ExpireDelegationToken => ExpireDelegationTokenResponse.type
  | .DescribeDelegationToken => DescribeDelegationTokenResponse.type
  | .DeleteGroups => DeleteGroupsResponse.type
  | .ElectLeaders => ElectLeadersResponse.type
  | .IncrementalAlterConfigs => IncrementalAlterConfigsResponse.type
  | .AlterPartitionReassignments => AlterPartitionReassignmentsResponse.type
  | .ListPartitionReassignments => ListPartitionReassignmentsResponse.type
  | .OffsetDelete => OffsetDeleteResponse.type

/-- The specification of the request type. -/
def reqLayout : (a : Api) → Layout a.req
  | .Produce => ProduceRequest.layout
  | .Fetch => FetchRequest.layout
  | .ListOffset => ListOffsetRequest.layout
  | .Metadata => MetadataRequest.layout
  | .LeaderAndIsr => LeaderAndIsrRequest.layout
  | .StopReplica => StopReplicaRequest.layout
  | .UpdateMetadata => UpdateMetadataRequest.layout
  | .ControlledShutdown => ControlledShutdownRequest.layout
  | .OffsetCommit => OffsetCommitRequest.layout
  | .OffsetFetch => OffsetFetchRequest.layout
  | .FindCoordinator => FindCoordinatorRequest.layout
  | .JoinGroup => JoinGroupRequest.layout
  | .Heartbeat => HeartbeatRequest.layout
  | .LeaveGroup => LeaveGroupRequest.layout
  | .SyncGroup => SyncGroupRequest.layout
  | .DescribeGroups => DescribeGroupsRequest.layout
  | .ListGroups => ListGroupsRequest.layout
  | .SaslHandshake => SaslHandshakeRequest.layout
  | .ApiVersions => ApiVersionsRequest.layout
  | .CreateTopics => CreateTopicsRequest.layout
  | .DeleteTopics => DeleteTopicsRequest.layout
  | .DeleteRecords => DeleteRecordsRequest.layout
  | .InitProducerId => InitProducerIdRequest.layout
  | .OffsetForLeaderEpoch => OffsetForLeaderEpochRequest.layout
  | .AddPartitionsToTxn => AddPartitionsToTxnRequest.layout
  | .AddOffsetsToTxn => AddOffsetsToTxnRequest.layout
  | .EndTxn => EndTxnRequest.layout
  | .WriteTxnMarkers => WriteTxnMarkersRequest.layout
  | .TxnOffsetCommit => TxnOffsetCommitRequest.layout
  | .DescribeAcls => DescribeAclsRequest.layout
  | .CreateAcls => CreateAclsRequest.layout
  | .DeleteAcls => DeleteAclsRequest.layout
  | .DescribeConfigs => DescribeConfigsRequest.layout
  | .AlterConfigs => AlterConfigsRequest.layout
  | .AlterReplicaLogDirs => AlterReplicaLogDirsRequest.layout
  | .DescribeLogDirs => DescribeLogDirsRequest.layout
  | .SaslAuthenticate => SaslAuthenticateRequest.layout
  | .CreatePartitions => CreatePartitionsRequest.layout
  | .CreateDelegationToken => CreateDelegationTokenRequest.layout
  | .RenewDelegationToken => RenewDelegationTokenRequest.layout
  | .ExpireDelegationToken => ExpireDelegationTokenRequest.layout
  | .DescribeDelegationToken => DescribeDelegationTokenRequest.layout
  | .DeleteGroups => DeleteGroupsRequest.layout
  | .ElectLeaders => ElectLeadersRequest.layout
  | .IncrementalAlterConfigs => IncrementalAlterConfigsRequest.layout
  | .AlterPartitionReassignments => AlterPartitionReassignmentsRequest.layout
  | .ListPartitionReassignments => ListPartitionReassignmentsRequest.layout
  | .OffsetDelete => OffsetDeleteRequest.layout

/-- The specification of the response type. -/
def respLayout : (a : Api) → Layout a.resp
  | .Produce => ProduceResponse.layout
  | .Fetch => FetchResponse.layout
  | .ListOffset => ListOffsetResponse.layout
  | .Metadata => MetadataResponse.layout
  | .LeaderAndIsr => LeaderAndIsrResponse.layout
  | .StopReplica => StopReplicaResponse.layout
  | .UpdateMetadata => UpdateMetadataResponse.layout
  | .ControlledShutdown => ControlledShutdownResponse.layout
  | .OffsetCommit => OffsetCommitResponse.layout
  | .OffsetFetch => OffsetFetchResponse.layout
  | .FindCoordinator => FindCoordinatorResponse.layout
  | .JoinGroup => JoinGroupResponse.layout
  | .Heartbeat => HeartbeatResponse.layout
  | .LeaveGroup => LeaveGroupResponse.layout
  | .SyncGroup => SyncGroupResponse.layout
  | .DescribeGroups => DescribeGroupsResponse.layout
  | .ListGroups => ListGroupsResponse.layout
  | .SaslHandshake => SaslHandshakeResponse.layout
  | .ApiVersions => ApiVersionsResponse.layout
  | .CreateTopics => CreateTopicsResponse.layout
  | .DeleteTopics => DeleteTopicsResponse.layout
  | .DeleteRecords => DeleteRecordsResponse.layout
  | .InitProducerId => InitProducerIdResponse.layout
  | .OffsetForLeaderEpoch => OffsetForLeaderEpochResponse.layout
  | .AddPartitionsToTxn => AddPartitionsToTxnResponse.layout
  | .AddOffsetsToTxn => AddOffsetsToTxnResponse.layout
  | .EndTxn => EndTxnResponse.layout
  | .WriteTxnMarkers => WriteTxnMarkersResponse.layout
  | .TxnOffsetCommit => TxnOffsetCommitResponse.layout
  | .DescribeAcls => DescribeAclsResponse.layout
  | .CreateAcls => CreateAclsResponse.layout
  | .DeleteAcls => DeleteAclsResponse.layout
  | .DescribeConfigs => DescribeConfigsResponse.layout
  | .AlterConfigs => AlterConfigsResponse.layout
  | .AlterReplicaLogDirs => AlterReplicaLogDirsResponse.layout
  | .DescribeLogDirs => DescribeLogDirsResponse.layout
  | .SaslAuthenticate => SaslAuthenticateResponse.layout
  | .CreatePartitions => CreatePartitionsResponse.layout
  | .CreateDelegationToken => CreateDelegationTokenResponse.layout
  | .RenewDelegationToken => RenewDelegationTokenResponse.layout
  | .ExpireDelegationToken => ExpireDelegationTokenResponse.layout
  | .DescribeDelegationToken => DescribeDelegationTokenResponse.layout
  | .DeleteGroups => DeleteGroupsResponse.layout
  | .ElectLeaders => ElectLeadersResponse.layout
  | .IncrementalAlterConfigs => IncrementalAlterConfigsResponse.layout
  | .AlterPartitionReassignments => AlterPartitionReassignmentsResponse.layout
  | .ListPartitionReassignments => ListPartitionReassignmentsResponse.layout
  | .OffsetDelete => OffsetDeleteResponse.layout

theorem req_lawful : (a : Api) → Lawful a.req a.reqLayout
  | .Produce => ProduceRequest.lawful
  | .Fetch => FetchRequest.lawful
  | .ListOffset => ListOffsetRequest.lawful
  | .Metadata => MetadataRequest.lawful
  | .LeaderAndIsr => LeaderAndIsrRequest.lawful
  | .StopReplica => StopReplicaRequest.lawful
  | .UpdateMetadata => UpdateMetadataRequest.lawful
  | .ControlledShutdown => ControlledShutdownRequest.lawful
  | .OffsetCommit => OffsetCommitRequest.lawful
  | .OffsetFetch => OffsetFetchRequest.lawful
  | .FindCoordinator => FindCoordinatorRequest.lawful
  | .JoinGroup => JoinGroupRequest.lawful
  | .Heartbeat => HeartbeatRequest.lawful
  | .LeaveGroup => LeaveGroupRequest.lawful
  | .SyncGroup => SyncGroupRequest.lawful
  | .DescribeGroups => DescribeGroupsRequest.lawful
  | .ListGroups => ListGroupsRequest.lawful
  | .SaslHandshake => SaslHandshakeRequest.lawful
  | .ApiVersions => ApiVersionsRequest.lawful
  | .CreateTopics => CreateTopicsRequest.lawful
  | .DeleteTopics => DeleteTopicsRequest.lawful
  | .DeleteRecords => DeleteRecordsRequest.lawful
  | .InitProducerId => InitProducerIdRequest.lawful
  | .OffsetForLeaderEpoch => OffsetForLeaderEpochRequest.lawful
  | .AddPartitionsToTxn => AddPartitionsToTxnRequest.lawful
  | .AddOffsetsToTxn => AddOffsetsToTxnRequest.lawful
  | .EndTxn => EndTxnRequest.lawful
  | .WriteTxnMarkers => WriteTxnMarkersRequest.lawful
  | .TxnOffsetCommit => TxnOffsetCommitRequest.lawful
  | .DescribeAcls => DescribeAclsRequest.lawful
  | .CreateAcls => CreateAclsRequest.lawful
  | .DeleteAcls => DeleteAclsRequest.lawful
  | .DescribeConfigs => DescribeConfigsRequest.lawful
  | .AlterConfigs => AlterConfigsRequest.lawful
  | .AlterReplicaLogDirs => AlterReplicaLogDirsRequest.lawful
  | .DescribeLogDirs => DescribeLogDirsRequest.lawful
  | .SaslAuthenticate => SaslAuthenticateRequest.lawful
  | .CreatePartitions => CreatePartitionsRequest.lawful
  | .CreateDelegationToken => CreateDelegationTokenRequest.lawful
  | .RenewDelegationToken => RenewDelegationTokenRequest.lawful
  | .ExpireDelegationToken => ExpireDelegationTokenRequest.lawful
  | .DescribeDelegationToken => DescribeDelegationTokenRequest.lawful
  | .DeleteGroups => DeleteGroupsRequest.lawful
  | .ElectLeaders => ElectLeadersRequest.lawful
  | .IncrementalAlterConfigs => IncrementalAlterConfigsRequest.lawful
  | .AlterPartitionReassignments => AlterPartitionReassignmentsRequest.lawful
  | .ListPartitionReassignments => ListPartitionReassignmentsRequest.lawful
  | .OffsetDelete => OffsetDeleteRequest.lawful

theorem resp_lawful : (a : Api) → Lawful a.resp a.respLayout
  | .Produce => ProduceResponse.lawful
  | .Fetch => FetchResponse.lawful
  | .ListOffset => ListOffsetResponse.lawful
  | .Metadata => MetadataResponse.lawful
  | .LeaderAndIsr => LeaderAndIsrResponse.lawful
  | .StopReplica => StopReplicaResponse.lawful
  | .UpdateMetadata => UpdateMetadataResponse.lawful
  | .ControlledShutdown => ControlledShutdownResponse.lawful
  | .OffsetCommit => OffsetCommitResponse.lawful
  | .OffsetFetch => OffsetFetchResponse.lawful
  | .FindCoordinator => FindCoordinatorResponse.lawful
  | .JoinGroup => JoinGroupResponse.lawful
  | .Heartbeat => HeartbeatResponse.lawful
  | .LeaveGroup => LeaveGroupResponse.lawful
  | .SyncGroup => SyncGroupResponse.lawful
  | .DescribeGroups => DescribeGroupsResponse.lawful
  | .ListGroups => ListGroupsResponse.lawful
  | .SaslHandshake => SaslHandshakeResponse.lawful
  | .ApiVersions => ApiVersionsResponse.lawful
  | .CreateTopics => CreateTopicsResponse.lawful
  | .DeleteTopics => DeleteTopicsResponse.lawful
  | .DeleteRecords => DeleteRecordsResponse.lawful
  | .InitProducerId => InitProducerIdResponse.lawful
  | .OffsetForLeaderEpoch => OffsetForLeaderEpochResponse.lawful
  | .AddPartitionsToTxn => AddPartitionsToTxnResponse.lawful
  | .AddOffsetsToTxn => AddOffsetsToTxnResponse.lawful
  | .EndTxn => EndTxnResponse.lawful
  | .WriteTxnMarkers => WriteTxnMarkersResponse.lawful
  | .TxnOffsetCommit => TxnOffsetCommitResponse.lawful
  | .DescribeAcls => DescribeAclsResponse.lawful
  | .CreateAcls => CreateAclsResponse.lawful
  | .DeleteAcls => DeleteAclsResponse.lawful
  | .DescribeConfigs => DescribeConfigsResponse.lawful
  | .AlterConfigs => AlterConfigsResponse.lawful
  | .AlterReplicaLogDirs => AlterReplicaLogDirsResponse.lawful
  | .DescribeLogDirs => DescribeLogDirsResponse.lawful
  | .SaslAuthenticate => SaslAuthenticateResponse.lawful
  | .CreatePartitions => CreatePartitionsResponse.lawful
  | .CreateDelegationToken => CreateDelegationTokenResponse.lawful
  | .RenewDelegationToken => RenewDelegationTokenResponse.lawful
  | .ExpireDelegationToken => ExpireDelegationTokenResponse.lawful
  | .DescribeDelegationToken => DescribeDelegationTokenResponse.lawful
  | .DeleteGroups => DeleteGroupsResponse.lawful
  | .ElectLeaders => ElectLeadersResponse.lawful
  | .IncrementalAlterConfigs => IncrementalAlterConfigsResponse.lawful
  | .AlterPartitionReassignments => AlterPartitionReassignmentsResponse.lawful
  | .ListPartitionReassignments => ListPartitionReassignmentsResponse.lawful
  | .OffsetDelete => OffsetDeleteResponse.lawful

end Api

/-- The entry of the version table for an API. -/
def ApiVersion.get (av : ApiVersion) : Api → Int16
  | .Produce => av.Produce
  | .Fetch => av.Fetch
  | .ListOffset => av.ListOffset
  | .Metadata => av.Metadata
  | .LeaderAndIsr => av.LeaderAndIsr
  | .StopReplica => av.StopReplica
  | .UpdateMetadata => av.UpdateMetadata
  | .ControlledShutdown => av.ControlledShutdown
  | .OffsetCommit => av.OffsetCommit
  | .OffsetFetch => av.OffsetFetch
  | .FindCoordinator => av.FindCoordinator
  | .JoinGroup => av.JoinGroup
  | .Heartbeat => av.Heartbeat
  | .LeaveGroup => av.LeaveGroup
  | .SyncGroup => av.SyncGroup
  | .DescribeGroups => av.DescribeGroups
  | .ListGroups => av.ListGroups
  | .SaslHandshake => av.SaslHandshake
  | .ApiVersions => av.ApiVersions
  | .CreateTopics => av.CreateTopics
  | .DeleteTopics => av.DeleteTopics
  | .DeleteRecords => av.DeleteRecords
  | .InitProducerId => av.InitProducerId
  | .OffsetForLeaderEpoch => av.OffsetForLeaderEpoch
  | .AddPartitionsToTxn => av.AddPartitionsToTxn
  | .AddOffsetsToTxn => av.AddOffsetsToTxn
  | .EndTxn => av.EndTxn
  | .WriteTxnMarkers => av.WriteTxnMarkers
  | .TxnOffsetCommit => av.TxnOffsetCommit
  | .DescribeAcls => av.DescribeAcls
  | .CreateAcls => av.CreateAcls
  | .DeleteAcls => av.DeleteAcls
  | .DescribeConfigs => av.DescribeConfigs
  | .AlterConfigs => av.AlterConfigs
  | .AlterReplicaLogDirs => av.AlterReplicaLogDirs
  | .DescribeLogDirs => av.DescribeLogDirs
  | .SaslAuthenticate => av.SaslAuthenticate
  | .CreatePartitions => av.CreatePartitions
  | .CreateDelegationToken => av.CreateDelegationToken
  | .RenewDelegationToken => av.RenewDelegationToken
  | .ExpireDelegationToken => av.ExpireDelegationToken
  | .DescribeDelegationToken => av.DescribeDelegationToken
  | .DeleteGroups => av.DeleteGroups
  | .ElectLeaders => av.ElectLeaders
  | .IncrementalAlterConfigs => av.IncrementalAlterConfigs
  | .AlterPartitionReassignments => av.AlterPartitionReassignments
  | .ListPartitionReassignments => av.ListPartitionReassignments
  | .OffsetDelete => av.OffsetDelete

/-- Replace one entry of the version table. -/
def ApiVersion.put (av : ApiVersion) (v : Int16) : Api → ApiVersion
  | .Produce => { av with Produce := v }
  | .Fetch => { av with Fetch := v }
  | .ListOffset => { av with ListOffset := v }
  | .Metadata => { av with Metadata := v }
  | .LeaderAndIsr => { av with LeaderAndIsr := v }
  | .StopReplica => { av with StopReplica := v }
  | .UpdateMetadata => { av with UpdateMetadata := v }
  | .ControlledShutdown => { av with ControlledShutdown := v }
  | .OffsetCommit => { av with OffsetCommit := v }
  | .OffsetFetch => { av with OffsetFetch := v }
  | .FindCoordinator => { av with FindCoordinator := v }
  | .JoinGroup => { av with JoinGroup := v }
  | .Heartbeat => { av with Heartbeat := v }
  | .LeaveGroup => { av with LeaveGroup := v }
  | .SyncGroup => { av with SyncGroup := v }
  | .DescribeGroups => { av with DescribeGroups := v }
  | .ListGroups => { av with ListGroups := v }
  | .SaslHandshake => { av with SaslHandshake := v }
  | .ApiVersions => { av with ApiVersions := v }
  | .CreateTopics => { av with CreateTopics := v }
  | .DeleteTopics => { av with DeleteTopics := v }
  | .DeleteRecords => { av with DeleteRecords := v }
  | .InitProducerId => { av with InitProducerId := v }
  | .OffsetForLeaderEpoch => { av with OffsetForLeaderEpoch := v }
  | .AddPartitionsToTxn => { av with AddPartitionsToTxn := v }
  | .AddOffsetsToTxn => { av with AddOffsetsToTxn := v }
  | .EndTxn => { av with EndTxn := v }
  | .WriteTxnMarkers => { av with WriteTxnMarkers := v }
  | .TxnOffsetCommit => { av with TxnOffsetCommit := v }
  | .DescribeAcls => { av with DescribeAcls := v }
  | .CreateAcls => { av with CreateAcls := v }
  | .DeleteAcls => { av with DeleteAcls := v }
  | .DescribeConfigs => { av with DescribeConfigs := v }
  | .AlterConfigs => { av with AlterConfigs := v }
  | .AlterReplicaLogDirs => { av with AlterReplicaLogDirs := v }
  | .DescribeLogDirs => { av with DescribeLogDirs := v }
  | .SaslAuthenticate => { av with SaslAuthenticate := v }
  | .CreatePartitions => { av with CreatePartitions := v }
  | .CreateDelegationToken => { av with CreateDelegationToken := v }
  | .RenewDelegationToken => { av with RenewDelegationToken := v }
  | .ExpireDelegationToken => { av with ExpireDelegationToken := v }
  | .DescribeDelegationToken => { av with DescribeDelegationToken := v }
  | .DeleteGroups => { av with DeleteGroups := v }
  | .ElectLeaders => { av with ElectLeaders := v }
  | .IncrementalAlterConfigs => { av with IncrementalAlterConfigs := v }
  | .AlterPartitionReassignments => { av with AlterPartitionReassignments := v }
  | .ListPartitionReassignments => { av with ListPartitionReassignments := v }
  | .OffsetDelete => { av with OffsetDelete := v }

theorem ApiVersion.ext_get {av av' : ApiVersion} (h : ∀ a, av.get a = av'.get a) : av = av' :=
  ApiVersion.ext (h .Produce)
    (h .Fetch)
    (h .ListOffset)
    (h .Metadata)
    (h .LeaderAndIsr)
    (h .StopReplica)
    (h .UpdateMetadata)
    (h .ControlledShutdown)
    (h .OffsetCommit)
    (h .OffsetFetch)
    (h .FindCoordinator)
    (h .JoinGroup)
    (h .Heartbeat)
    (h .LeaveGroup)
    (h .SyncGroup)
    (h .DescribeGroups)
    (h .ListGroups)
    (h .SaslHandshake)
    (h .ApiVersions)
    (h .CreateTopics)
    (h .DeleteTopics)
    (h .DeleteRecords)
    (h .InitProducerId)
    (h .OffsetForLeaderEpoch)
    (h .AddPartitionsToTxn)
    (h .AddOffsetsToTxn)
    (h .EndTxn)
    (h .WriteTxnMarkers)
    (h .TxnOffsetCommit)
    (h .DescribeAcls)
    (h .CreateAcls)
    (h .DeleteAcls)
    (h .DescribeConfigs)
    (h .AlterConfigs)
    (h .AlterReplicaLogDirs)
    (h .DescribeLogDirs)
    (h .SaslAuthenticate)
    (h .CreatePartitions)
    (h .CreateDelegationToken)
    (h .RenewDelegationToken)
    (h .ExpireDelegationToken)
    (h .DescribeDelegationToken)
    (h .DeleteGroups)
    (h .ElectLeaders)
    (h .IncrementalAlterConfigs)
    (h .AlterPartitionReassignments)
    (h .ListPartitionReassignments)
    (h .OffsetDelete)

/-- The method of `Broker` for an API. -/
def Broker.call (b : Broker) : (a : Api) → a.req.T → Call a.resp.T
  | .Produce => fun req => b.produce req
  | .Fetch => fun req => b.fetch req
  | .ListOffset => fun req => b.listOffset req
  | .Metadata => fun req => b.metadata req
  | .LeaderAndIsr => fun req => b.leaderAndIsr req
  | .StopReplica => fun req => b.stopReplica req
  | .UpdateMetadata => fun req => b.updateMetadata req
  | .ControlledShutdown => fun req => b.controlledShutdown req
  | .OffsetCommit => fun req => b.offsetCommit req
  | .OffsetFetch => fun req => b.offsetFetch req
  | .FindCoordinator => fun req => b.findCoordinator req
  | .JoinGroup => fun req => b.joinGroup req
  | .Heartbeat => fun req => b.heartbeat req
  | .LeaveGroup => fun req => b.leaveGroup req
  | .SyncGroup => fun req => b.syncGroup req
  | .DescribeGroups => fun req => b.describeGroups req
  | .ListGroups => fun req => b.listGroups req
  | .SaslHandshake => fun req => b.saslHandshake req
  | .ApiVersions => fun req => b.apiVersions req
  | .CreateTopics => fun req => b.createTopics req
  | .DeleteTopics => fun req => b.deleteTopics req
  | .DeleteRecords => fun req => b.deleteRecords req
  | .InitProducerId => fun req => b.initProducerId req
  | .OffsetForLeaderEpoch => fun req => b.offsetForLeaderEpoch req
  | .AddPartitionsToTxn => fun req => b.addPartitionsToTxn req
  | .AddOffsetsToTxn => fun req => b.addOffsetsToTxn req
  | .EndTxn => fun req => b.endTxn req
  | .WriteTxnMarkers => fun req => b.writeTxnMarkers req
  | .TxnOffsetCommit => fun req => b.txnOffsetCommit req
  | .DescribeAcls => fun req => b.describeAcls req
  | .CreateAcls => fun req => b.createAcls req
  | .DeleteAcls => fun req => b.deleteAcls req
  | .DescribeConfigs => fun req => b.describeConfigs req
  | .AlterConfigs => fun req => b.alterConfigs req
  | .AlterReplicaLogDirs => fun req => b.alterReplicaLogDirs req
  | .DescribeLogDirs => fun req => b.describeLogDirs req
  | .SaslAuthenticate => fun req => b.saslAuthenticate req
  | .CreatePartitions => fun req => b.createPartitions req
  | .CreateDelegationToken => fun req => b.createDelegationToken req
  | .RenewDelegationToken => fun req => b.renewDelegationToken req
  | .ExpireDelegationToken => fun req => b.expireDelegationToken req
  | .DescribeDelegationToken => fun req => b.describeDelegationToken req
  | .DeleteGroups => fun req => b.deleteGroups req
  | .ElectLeaders => fun req => b.electLeaders req
  | .IncrementalAlterConfigs => fun req => b.incrementalAlterConfigs req
  | .AlterPartitionReassignments => fun req => b.alterPartitionReassignments req
  | .ListPartitionReassignments => fun req => b.listPartitionReassignments req
  | .OffsetDelete => fun req => b.offsetDelete req

end Kafka
