import Verif.Protocol.Conform.Produce
import Verif.Protocol.Conform.Header
import Verif.Protocol.Conform.Fetch
import Verif.Protocol.Conform.ListOffset
import Verif.Protocol.Conform.Metadata
import Verif.Protocol.Conform.LeaderAndIsr
import Verif.Protocol.Conform.StopReplica
import Verif.Protocol.Conform.UpdateMetadata
import Verif.Protocol.Conform.ControlledShutdown
import Verif.Protocol.Conform.OffsetCommit
import Verif.Protocol.Conform.OffsetFetch
import Verif.Protocol.Conform.FindCoordinator
import Verif.Protocol.Conform.JoinGroup
import Verif.Protocol.Conform.Heartbeat
import Verif.Protocol.Conform.LeaveGroup
import Verif.Protocol.Conform.SyncGroup
import Verif.Protocol.Conform.DescribeGroups
import Verif.Protocol.Conform.ListGroups
import Verif.Protocol.Conform.SaslHandshake
import Verif.Protocol.Conform.ApiVersions
import Verif.Protocol.Conform.CreateTopics
import Verif.Protocol.Conform.DeleteTopics
import Verif.Protocol.Conform.DeleteRecords
import Verif.Protocol.Conform.InitProducerId
import Verif.Protocol.Conform.OffsetForLeaderEpoch
import Verif.Protocol.Conform.AddPartitionsToTxn
import Verif.Protocol.Conform.AddOffsetsToTxn
import Verif.Protocol.Conform.EndTxn
import Verif.Protocol.Conform.WriteTxnMarkers
import Verif.Protocol.Conform.TxnOffsetCommit
import Verif.Protocol.Conform.DescribeAcls
import Verif.Protocol.Conform.CreateAcls
import Verif.Protocol.Conform.DeleteAcls
import Verif.Protocol.Conform.DescribeConfigs
import Verif.Protocol.Conform.AlterConfigs
import Verif.Protocol.Conform.AlterReplicaLogDirs
import Verif.Protocol.Conform.DescribeLogDirs
import Verif.Protocol.Conform.SaslAuthenticate
import Verif.Protocol.Conform.CreatePartitions
import Verif.Protocol.Conform.CreateDelegationToken
import Verif.Protocol.Conform.RenewDelegationToken
import Verif.Protocol.Conform.ExpireDelegationToken
import Verif.Protocol.Conform.DescribeDelegationToken
import Verif.Protocol.Conform.DeleteGroups
import Verif.Protocol.Conform.ElectLeaders
import Verif.Protocol.Conform.IncrementalAlterConfigs
import Verif.Protocol.Conform.AlterPartitionReassignments
import Verif.Protocol.Conform.ListPartitionReassignments
import Verif.Protocol.Conform.OffsetDelete
import Verif.Protocol.Api
/-!
Generated by tools/gen_protocol.py: the requests and responses of all APIs.
-/
namespace Kafka

open Msg

/-- A request as a value of the protocol. -/
def Api.reqVal : (a : Api) → a.req.T → Protocol.Val
  | .Produce => ProduceRequest.val
  | .Fetch => FetchRequest.val
  | .ListOffset => ListOffsetRequest.val
  | .Metadata => MetadataRequest.val
  | .LeaderAndIsr => LeaderAndIsrRequest.val
  | .StopReplica => StopReplicaRequest.val
  | .UpdateMetadata => UpdateMetadataRequest.val
  | .ControlledShutdown => ControlledShutdownRequest.val
  | .OffsetCommit => OffsetCommitRequest.val
  | .OffsetFetch => OffsetFetchRequest.val
  | .FindCoordinator => FindCoordinatorRequest.val
  | .JoinGroup => JoinGroupRequest.val
  | .Heartbeat => HeartbeatRequest.val
  | .LeaveGroup => LeaveGroupRequest.val
  | .SyncGroup => SyncGroupRequest.val
  | .DescribeGroups => DescribeGroupsRequest.val
  | .ListGroups => ListGroupsRequest.val
  | .SaslHandshake => SaslHandshakeRequest.val
  | .ApiVersions => ApiVersionsRequest.val
  | .CreateTopics => CreateTopicsRequest.val
  | .DeleteTopics => DeleteTopicsRequest.val
  | .DeleteRecords => DeleteRecordsRequest.val
  | .InitProducerId => InitProducerIdRequest.val
  | .OffsetForLeaderEpoch => OffsetForLeaderEpochRequest.val
  | .AddPartitionsToTxn => AddPartitionsToTxnRequest.val
  | .AddOffsetsToTxn => AddOffsetsToTxnRequest.val
  | .EndTxn => EndTxnRequest.val
  | .WriteTxnMarkers => WriteTxnMarkersRequest.val
  | .TxnOffsetCommit => TxnOffsetCommitRequest.val
  | .DescribeAcls => DescribeAclsRequest.val
  | .CreateAcls => CreateAclsRequest.val
  | .DeleteAcls => DeleteAclsRequest.val
  | .DescribeConfigs => DescribeConfigsRequest.val
  | .AlterConfigs => AlterConfigsRequest.val
  | .AlterReplicaLogDirs => AlterReplicaLogDirsRequest.val
  | .DescribeLogDirs => DescribeLogDirsRequest.val
  | .SaslAuthenticate => SaslAuthenticateRequest.val
  | .CreatePartitions => CreatePartitionsRequest.val
  | .CreateDelegationToken => CreateDelegationTokenRequest.val
  | .RenewDelegationToken => RenewDelegationTokenRequest.val
  | .ExpireDelegationToken => ExpireDelegationTokenRequest.val
  | .DescribeDelegationToken => DescribeDelegationTokenRequest.val
  | .DeleteGroups => DeleteGroupsRequest.val
  | .ElectLeaders => ElectLeadersRequest.val
  | .IncrementalAlterConfigs => IncrementalAlterConfigsRequest.val
  | .AlterPartitionReassignments => AlterPartitionReassignmentsRequest.val
  | .ListPartitionReassignments => ListPartitionReassignmentsRequest.val
  | .OffsetDelete => OffsetDeleteRequest.val

/-- A response as a value of the protocol. -/
def Api.respVal : (a : Api) → a.resp.T → Protocol.Val
  | .Produce => ProduceResponse.val
  | .Fetch => FetchResponse.val
  | .ListOffset => ListOffsetResponse.val
  | .Metadata => MetadataResponse.val
  | .LeaderAndIsr => LeaderAndIsrResponse.val
  | .StopReplica => StopReplicaResponse.val
  | .UpdateMetadata => UpdateMetadataResponse.val
  | .ControlledShutdown => ControlledShutdownResponse.val
  | .OffsetCommit => OffsetCommitResponse.val
  | .OffsetFetch => OffsetFetchResponse.val
  | .FindCoordinator => FindCoordinatorResponse.val
  | .JoinGroup => JoinGroupResponse.val
  | .Heartbeat => HeartbeatResponse.val
  | .LeaveGroup => LeaveGroupResponse.val
  | .SyncGroup => SyncGroupResponse.val
  | .DescribeGroups => DescribeGroupsResponse.val
  | .ListGroups => ListGroupsResponse.val
  | .SaslHandshake => SaslHandshakeResponse.val
  | .ApiVersions => ApiVersionsResponse.val
  | .CreateTopics => CreateTopicsResponse.val
  | .DeleteTopics => DeleteTopicsResponse.val
  | .DeleteRecords => DeleteRecordsResponse.val
  | .InitProducerId => InitProducerIdResponse.val
  | .OffsetForLeaderEpoch => OffsetForLeaderEpochResponse.val
  | .AddPartitionsToTxn => AddPartitionsToTxnResponse.val
  | .AddOffsetsToTxn => AddOffsetsToTxnResponse.val
  | .EndTxn => EndTxnResponse.val
  | .WriteTxnMarkers => WriteTxnMarkersResponse.val
  | .TxnOffsetCommit => TxnOffsetCommitResponse.val
  | .DescribeAcls => DescribeAclsResponse.val
  | .CreateAcls => CreateAclsResponse.val
  | .DeleteAcls => DeleteAclsResponse.val
  | .DescribeConfigs => DescribeConfigsResponse.val
  | .AlterConfigs => AlterConfigsResponse.val
  | .AlterReplicaLogDirs => AlterReplicaLogDirsResponse.val
  | .DescribeLogDirs => DescribeLogDirsResponse.val
  | .SaslAuthenticate => SaslAuthenticateResponse.val
  | .CreatePartitions => CreatePartitionsResponse.val
  | .CreateDelegationToken => CreateDelegationTokenResponse.val
  | .RenewDelegationToken => RenewDelegationTokenResponse.val
  | .ExpireDelegationToken => ExpireDelegationTokenResponse.val
  | .DescribeDelegationToken => DescribeDelegationTokenResponse.val
  | .DeleteGroups => DeleteGroupsResponse.val
  | .ElectLeaders => ElectLeadersResponse.val
  | .IncrementalAlterConfigs => IncrementalAlterConfigsResponse.val
  | .AlterPartitionReassignments => AlterPartitionReassignmentsResponse.val
  | .ListPartitionReassignments => ListPartitionReassignmentsResponse.val
  | .OffsetDelete => OffsetDeleteResponse.val

theorem Api.req_conforms : (a : Api) → (v : Int16) → (hv : 0 ≤ v) → (a = .OffsetCommit → v ≠ 1) → (req : a.req.T) →
    (Protocol.request a).wire false v (a.reqVal req) = a.reqLayout.wire v req
  | .Produce, _, hv, _, t => ProduceRequest.conforms hv t
  | .Fetch, _, hv, _, t => FetchRequest.conforms hv t
  | .ListOffset, _, hv, _, t => ListOffsetRequest.conforms hv t
  | .Metadata, _, hv, _, t => MetadataRequest.conforms hv t
  | .LeaderAndIsr, _, hv, _, t => LeaderAndIsrRequest.conforms hv t
  | .StopReplica, _, hv, _, t => StopReplicaRequest.conforms hv t
  | .UpdateMetadata, _, hv, _, t => UpdateMetadataRequest.conforms hv t
  | .ControlledShutdown, _, hv, _, t => ControlledShutdownRequest.conforms hv t
  | .OffsetCommit, _, hv, h, t => OffsetCommitRequest.conforms hv (h rfl) t
  | .OffsetFetch, _, hv, _, t => OffsetFetchRequest.conforms hv t
  | .FindCoordinator, _, hv, _, t => FindCoordinatorRequest.conforms hv t
  | .JoinGroup, _, hv, _, t => JoinGroupRequest.conforms hv t
  | .Heartbeat, _, hv, _, t => HeartbeatRequest.conforms hv t
  | .LeaveGroup, _, hv, _, t => LeaveGroupRequest.conforms hv t
  | .SyncGroup, _, hv, _, t => SyncGroupRequest.conforms hv t
  | .DescribeGroups, _, hv, _, t => DescribeGroupsRequest.conforms hv t
  | .ListGroups, _, hv, _, t => ListGroupsRequest.conforms hv t
  | .SaslHandshake, _, hv, _, t => SaslHandshakeRequest.conforms hv t
  | .ApiVersions, _, hv, _, t => ApiVersionsRequest.conforms hv t
  | .CreateTopics, _, hv, _, t => CreateTopicsRequest.conforms hv t
  | .DeleteTopics, _, hv, _, t => DeleteTopicsRequest.conforms hv t
  | .DeleteRecords, _, hv, _, t => DeleteRecordsRequest.conforms hv t
  | .InitProducerId, _, hv, _, t => InitProducerIdRequest.conforms hv t
  | .OffsetForLeaderEpoch, _, hv, _, t => OffsetForLeaderEpochRequest.conforms hv t
  | .AddPartitionsToTxn, _, hv, _, t => AddPartitionsToTxnRequest.conforms hv t
  | .AddOffsetsToTxn, _, hv, _, t => AddOffsetsToTxnRequest.conforms hv t
  | .EndTxn, _, hv, _, t => EndTxnRequest.conforms hv t
  | .WriteTxnMarkers, _, hv, _, t => WriteTxnMarkersRequest.conforms hv t
  | .TxnOffsetCommit, _, hv, _, t => TxnOffsetCommitRequest.conforms hv t
  | .DescribeAcls, _, hv, _, t => DescribeAclsRequest.conforms hv t
  | .CreateAcls, _, hv, _, t => CreateAclsRequest.conforms hv t
  | .DeleteAcls, _, hv, _, t => DeleteAclsRequest.conforms hv t
  | .DescribeConfigs, _, hv, _, t => DescribeConfigsRequest.conforms hv t
  | .AlterConfigs, _, hv, _, t => AlterConfigsRequest.conforms hv t
  | .AlterReplicaLogDirs, _, hv, _, t => AlterReplicaLogDirsRequest.conforms hv t
  | .DescribeLogDirs, _, hv, _, t => DescribeLogDirsRequest.conforms hv t
  | .SaslAuthenticate, _, hv, _, t => SaslAuthenticateRequest.conforms hv t
  | .CreatePartitions, _, hv, _, t => CreatePartitionsRequest.conforms hv t
  | .CreateDelegationToken, _, hv, _, t => CreateDelegationTokenRequest.conforms hv t
  | .RenewDelegationToken, _, hv, _, t => RenewDelegationTokenRequest.conforms hv t
  | .ExpireDelegationToken, _, hv, _, t => ExpireDelegationTokenRequest.conforms hv t
  | .DescribeDelegationToken, _, hv, _, t => DescribeDelegationTokenRequest.conforms hv t
  | .DeleteGroups, _, hv, _, t => DeleteGroupsRequest.conforms hv t
  | .ElectLeaders, _, hv, _, t => ElectLeadersRequest.conforms hv t
  | .IncrementalAlterConfigs, _, hv, _, t => IncrementalAlterConfigsRequest.conforms hv t
  | .AlterPartitionReassignments, _, hv, _, t => AlterPartitionReassignmentsRequest.conforms hv t
  | .ListPartitionReassignments, _, hv, _, t => ListPartitionReassignmentsRequest.conforms hv t
  | .OffsetDelete, _, hv, _, t => OffsetDeleteRequest.conforms hv t

/-- No slice of scalars is nil where the protocol has no null. -/
def Api.reqFull : (a : Api) → Int16 → a.req.T → Prop
  | .Produce => ProduceRequest.Full
  | .Fetch => FetchRequest.Full
  | .ListOffset => ListOffsetRequest.Full
  | .Metadata => MetadataRequest.Full
  | .LeaderAndIsr => LeaderAndIsrRequest.Full
  | .StopReplica => StopReplicaRequest.Full
  | .UpdateMetadata => UpdateMetadataRequest.Full
  | .ControlledShutdown => ControlledShutdownRequest.Full
  | .OffsetCommit => OffsetCommitRequest.Full
  | .OffsetFetch => OffsetFetchRequest.Full
  | .FindCoordinator => FindCoordinatorRequest.Full
  | .JoinGroup => JoinGroupRequest.Full
  | .Heartbeat => HeartbeatRequest.Full
  | .LeaveGroup => LeaveGroupRequest.Full
  | .SyncGroup => SyncGroupRequest.Full
  | .DescribeGroups => DescribeGroupsRequest.Full
  | .ListGroups => ListGroupsRequest.Full
  | .SaslHandshake => SaslHandshakeRequest.Full
  | .ApiVersions => ApiVersionsRequest.Full
  | .CreateTopics => CreateTopicsRequest.Full
  | .DeleteTopics => DeleteTopicsRequest.Full
  | .DeleteRecords => DeleteRecordsRequest.Full
  | .InitProducerId => InitProducerIdRequest.Full
  | .OffsetForLeaderEpoch => OffsetForLeaderEpochRequest.Full
  | .AddPartitionsToTxn => AddPartitionsToTxnRequest.Full
  | .AddOffsetsToTxn => AddOffsetsToTxnRequest.Full
  | .EndTxn => EndTxnRequest.Full
  | .WriteTxnMarkers => WriteTxnMarkersRequest.Full
  | .TxnOffsetCommit => TxnOffsetCommitRequest.Full
  | .DescribeAcls => DescribeAclsRequest.Full
  | .CreateAcls => CreateAclsRequest.Full
  | .DeleteAcls => DeleteAclsRequest.Full
  | .DescribeConfigs => DescribeConfigsRequest.Full
  | .AlterConfigs => AlterConfigsRequest.Full
  | .AlterReplicaLogDirs => AlterReplicaLogDirsRequest.Full
  | .DescribeLogDirs => DescribeLogDirsRequest.Full
  | .SaslAuthenticate => SaslAuthenticateRequest.Full
  | .CreatePartitions => CreatePartitionsRequest.Full
  | .CreateDelegationToken => CreateDelegationTokenRequest.Full
  | .RenewDelegationToken => RenewDelegationTokenRequest.Full
  | .ExpireDelegationToken => ExpireDelegationTokenRequest.Full
  | .DescribeDelegationToken => DescribeDelegationTokenRequest.Full
  | .DeleteGroups => DeleteGroupsRequest.Full
  | .ElectLeaders => ElectLeadersRequest.Full
  | .IncrementalAlterConfigs => IncrementalAlterConfigsRequest.Full
  | .AlterPartitionReassignments => AlterPartitionReassignmentsRequest.Full
  | .ListPartitionReassignments => ListPartitionReassignmentsRequest.Full
  | .OffsetDelete => OffsetDeleteRequest.Full

theorem Api.req_valid : (a : Api) → (v : Int16) → (hv : 0 ≤ v) → (a = .OffsetCommit → v ≠ 1) → (req : a.req.T) →
    a.reqLayout.Fits v req → a.reqFull v req → (Protocol.request a).Valid true v (a.reqVal req)
  | .Produce, _, hv, _, t, hf, hF => ProduceRequest.valid hv t hf hF
  | .Fetch, _, hv, _, t, hf, hF => FetchRequest.valid hv t hf hF
  | .ListOffset, _, hv, _, t, hf, hF => ListOffsetRequest.valid hv t hf hF
  | .Metadata, _, hv, _, t, hf, hF => MetadataRequest.valid hv t hf hF
  | .LeaderAndIsr, _, hv, _, t, hf, hF => LeaderAndIsrRequest.valid hv t hf hF
  | .StopReplica, _, hv, _, t, hf, hF => StopReplicaRequest.valid hv t hf hF
  | .UpdateMetadata, _, hv, _, t, hf, hF => UpdateMetadataRequest.valid hv t hf hF
  | .ControlledShutdown, _, hv, _, t, hf, hF => ControlledShutdownRequest.valid hv t hf hF
  | .OffsetCommit, _, hv, h, t, hf, hF => OffsetCommitRequest.valid hv (h rfl) t hf hF
  | .OffsetFetch, _, hv, _, t, hf, hF => OffsetFetchRequest.valid hv t hf hF
  | .FindCoordinator, _, hv, _, t, hf, hF => FindCoordinatorRequest.valid hv t hf hF
  | .JoinGroup, _, hv, _, t, hf, hF => JoinGroupRequest.valid hv t hf hF
  | .Heartbeat, _, hv, _, t, hf, hF => HeartbeatRequest.valid hv t hf hF
  | .LeaveGroup, _, hv, _, t, hf, hF => LeaveGroupRequest.valid hv t hf hF
  | .SyncGroup, _, hv, _, t, hf, hF => SyncGroupRequest.valid hv t hf hF
  | .DescribeGroups, _, hv, _, t, hf, hF => DescribeGroupsRequest.valid hv t hf hF
  | .ListGroups, _, hv, _, t, hf, hF => ListGroupsRequest.valid hv t hf hF
  | .SaslHandshake, _, hv, _, t, hf, hF => SaslHandshakeRequest.valid hv t hf hF
  | .ApiVersions, _, hv, _, t, hf, hF => ApiVersionsRequest.valid hv t hf hF
  | .CreateTopics, _, hv, _, t, hf, hF => CreateTopicsRequest.valid hv t hf hF
  | .DeleteTopics, _, hv, _, t, hf, hF => DeleteTopicsRequest.valid hv t hf hF
  | .DeleteRecords, _, hv, _, t, hf, hF => DeleteRecordsRequest.valid hv t hf hF
  | .InitProducerId, _, hv, _, t, hf, hF => InitProducerIdRequest.valid hv t hf hF
  | .OffsetForLeaderEpoch, _, hv, _, t, hf, hF => OffsetForLeaderEpochRequest.valid hv t hf hF
  | .AddPartitionsToTxn, _, hv, _, t, hf, hF => AddPartitionsToTxnRequest.valid hv t hf hF
  | .AddOffsetsToTxn, _, hv, _, t, hf, hF => AddOffsetsToTxnRequest.valid hv t hf hF
  | .EndTxn, _, hv, _, t, hf, hF => EndTxnRequest.valid hv t hf hF
  | .WriteTxnMarkers, _, hv, _, t, hf, hF => WriteTxnMarkersRequest.valid hv t hf hF
  | .TxnOffsetCommit, _, hv, _, t, hf, hF => TxnOffsetCommitRequest.valid hv t hf hF
  | .DescribeAcls, _, hv, _, t, hf, hF => DescribeAclsRequest.valid hv t hf hF
  | .CreateAcls, _, hv, _, t, hf, hF => CreateAclsRequest.valid hv t hf hF
  | .DeleteAcls, _, hv, _, t, hf, hF => DeleteAclsRequest.valid hv t hf hF
  | .DescribeConfigs, _, hv, _, t, hf, hF => DescribeConfigsRequest.valid hv t hf hF
  | .AlterConfigs, _, hv, _, t, hf, hF => AlterConfigsRequest.valid hv t hf hF
  | .AlterReplicaLogDirs, _, hv, _, t, hf, hF => AlterReplicaLogDirsRequest.valid hv t hf hF
  | .DescribeLogDirs, _, hv, _, t, hf, hF => DescribeLogDirsRequest.valid hv t hf hF
  | .SaslAuthenticate, _, hv, _, t, hf, hF => SaslAuthenticateRequest.valid hv t hf hF
  | .CreatePartitions, _, hv, _, t, hf, hF => CreatePartitionsRequest.valid hv t hf hF
  | .CreateDelegationToken, _, hv, _, t, hf, hF => CreateDelegationTokenRequest.valid hv t hf hF
  | .RenewDelegationToken, _, hv, _, t, hf, hF => RenewDelegationTokenRequest.valid hv t hf hF
  | .ExpireDelegationToken, _, hv, _, t, hf, hF => ExpireDelegationTokenRequest.valid hv t hf hF
  | .DescribeDelegationToken, _, hv, _, t, hf, hF => DescribeDelegationTokenRequest.valid hv t hf hF
  | .DeleteGroups, _, hv, _, t, hf, hF => DeleteGroupsRequest.valid hv t hf hF
  | .ElectLeaders, _, hv, _, t, hf, hF => ElectLeadersRequest.valid hv t hf hF
  | .IncrementalAlterConfigs, _, hv, _, t, hf, hF => IncrementalAlterConfigsRequest.valid hv t hf hF
  | .AlterPartitionReassignments, _, hv, _, t, hf, hF => AlterPartitionReassignmentsRequest.valid hv t hf hF
  | .ListPartitionReassignments, _, hv, _, t, hf, hF => ListPartitionReassignmentsRequest.valid hv t hf hF
  | .OffsetDelete, _, hv, _, t, hf, hF => OffsetDeleteRequest.valid hv t hf hF

/-- What is read from the value `x`. -/
def Api.respOf : (a : Api) → Int16 → Protocol.Val → a.resp.T
  | .Produce, v, x => ProduceResponse.of v x {}
  | .Fetch, v, x => FetchResponse.of v x {}
  | .ListOffset, v, x => ListOffsetResponse.of v x {}
  | .Metadata, v, x => MetadataResponse.of v x {}
  | .LeaderAndIsr, v, x => LeaderAndIsrResponse.of v x {}
  | .StopReplica, v, x => StopReplicaResponse.of v x {}
  | .UpdateMetadata, v, x => UpdateMetadataResponse.of v x {}
  | .ControlledShutdown, v, x => ControlledShutdownResponse.of v x {}
  | .OffsetCommit, v, x => OffsetCommitResponse.of v x {}
  | .OffsetFetch, v, x => OffsetFetchResponse.of v x {}
  | .FindCoordinator, v, x => FindCoordinatorResponse.of v x {}
  | .JoinGroup, v, x => JoinGroupResponse.of v x {}
  | .Heartbeat, v, x => HeartbeatResponse.of v x {}
  | .LeaveGroup, v, x => LeaveGroupResponse.of v x {}
  | .SyncGroup, v, x => SyncGroupResponse.of v x {}
  | .DescribeGroups, v, x => DescribeGroupsResponse.of v x {}
  | .ListGroups, v, x => ListGroupsResponse.of v x {}
  | .SaslHandshake, v, x => SaslHandshakeResponse.of v x {}
  | .ApiVersions, v, x => ApiVersionsResponse.of v x {}
  | .CreateTopics, v, x => CreateTopicsResponse.of v x {}
  | .DeleteTopics, v, x => DeleteTopicsResponse.of v x {}
  | .DeleteRecords, v, x => DeleteRecordsResponse.of v x {}
  | .InitProducerId, v, x => InitProducerIdResponse.of v x {}
  | .OffsetForLeaderEpoch, v, x => OffsetForLeaderEpochResponse.of v x {}
  | .AddPartitionsToTxn, v, x => AddPartitionsToTxnResponse.of v x {}
  | .AddOffsetsToTxn, v, x => AddOffsetsToTxnResponse.of v x {}
  | .EndTxn, v, x => EndTxnResponse.of v x {}
  | .WriteTxnMarkers, v, x => WriteTxnMarkersResponse.of v x {}
  | .TxnOffsetCommit, v, x => TxnOffsetCommitResponse.of v x {}
  | .DescribeAcls, v, x => DescribeAclsResponse.of v x {}
  | .CreateAcls, v, x => CreateAclsResponse.of v x {}
  | .DeleteAcls, v, x => DeleteAclsResponse.of v x {}
  | .DescribeConfigs, v, x => DescribeConfigsResponse.of v x {}
  | .AlterConfigs, v, x => AlterConfigsResponse.of v x {}
  | .AlterReplicaLogDirs, v, x => AlterReplicaLogDirsResponse.of v x {}
  | .DescribeLogDirs, v, x => DescribeLogDirsResponse.of v x {}
  | .SaslAuthenticate, v, x => SaslAuthenticateResponse.of v x {}
  | .CreatePartitions, v, x => CreatePartitionsResponse.of v x {}
  | .CreateDelegationToken, v, x => CreateDelegationTokenResponse.of v x {}
  | .RenewDelegationToken, v, x => RenewDelegationTokenResponse.of v x {}
  | .ExpireDelegationToken, v, x => ExpireDelegationTokenResponse.of v x {}
  | .DescribeDelegationToken, v, x => DescribeDelegationTokenResponse.of v x {}
  | .DeleteGroups, v, x => DeleteGroupsResponse.of v x {}
  | .ElectLeaders, v, x => ElectLeadersResponse.of v x {}
  | .IncrementalAlterConfigs, v, x => IncrementalAlterConfigsResponse.of v x {}
  | .AlterPartitionReassignments, v, x => AlterPartitionReassignmentsResponse.of v x {}
  | .ListPartitionReassignments, v, x => ListPartitionReassignmentsResponse.of v x {}
  | .OffsetDelete, v, x => OffsetDeleteResponse.of v x {}

theorem Api.resp_decodes : (a : Api) → (v : Int16) → (hv : 0 ≤ v) → (a = .CreateTopics → v < 5) → (x : Protocol.Val) →
    (Protocol.response a).Valid false v x →
    Reads (a.resp.decode v a.resp.zero) ((Protocol.response a).wire false v x) (a.respOf v x)
  | .Produce, _, hv, _, x, hx => ProduceResponse.decodes hv x hx {}
  | .Fetch, _, hv, _, x, hx => FetchResponse.decodes hv x hx {}
  | .ListOffset, _, hv, _, x, hx => ListOffsetResponse.decodes hv x hx {}
  | .Metadata, _, hv, _, x, hx => MetadataResponse.decodes hv x hx {}
  | .LeaderAndIsr, _, hv, _, x, hx => LeaderAndIsrResponse.decodes hv x hx {}
  | .StopReplica, _, hv, _, x, hx => StopReplicaResponse.decodes hv x hx {}
  | .UpdateMetadata, _, hv, _, x, hx => UpdateMetadataResponse.decodes hv x hx {}
  | .ControlledShutdown, _, hv, _, x, hx => ControlledShutdownResponse.decodes hv x hx {}
  | .OffsetCommit, _, hv, _, x, hx => OffsetCommitResponse.decodes hv x hx {}
  | .OffsetFetch, _, hv, _, x, hx => OffsetFetchResponse.decodes hv x hx {}
  | .FindCoordinator, _, hv, _, x, hx => FindCoordinatorResponse.decodes hv x hx {}
  | .JoinGroup, _, hv, _, x, hx => JoinGroupResponse.decodes hv x hx {}
  | .Heartbeat, _, hv, _, x, hx => HeartbeatResponse.decodes hv x hx {}
  | .LeaveGroup, _, hv, _, x, hx => LeaveGroupResponse.decodes hv x hx {}
  | .SyncGroup, _, hv, _, x, hx => SyncGroupResponse.decodes hv x hx {}
  | .DescribeGroups, _, hv, _, x, hx => DescribeGroupsResponse.decodes hv x hx {}
  | .ListGroups, _, hv, _, x, hx => ListGroupsResponse.decodes hv x hx {}
  | .SaslHandshake, _, hv, _, x, hx => SaslHandshakeResponse.decodes hv x hx {}
  | .ApiVersions, _, hv, _, x, hx => ApiVersionsResponse.decodes hv x hx {}
  | .CreateTopics, _, hv, h, x, hx => CreateTopicsResponse.decodes hv (h rfl) x hx {}
  | .DeleteTopics, _, hv, _, x, hx => DeleteTopicsResponse.decodes hv x hx {}
  | .DeleteRecords, _, hv, _, x, hx => DeleteRecordsResponse.decodes hv x hx {}
  | .InitProducerId, _, hv, _, x, hx => InitProducerIdResponse.decodes hv x hx {}
  | .OffsetForLeaderEpoch, _, hv, _, x, hx => OffsetForLeaderEpochResponse.decodes hv x hx {}
  | .AddPartitionsToTxn, _, hv, _, x, hx => AddPartitionsToTxnResponse.decodes hv x hx {}
  | .AddOffsetsToTxn, _, hv, _, x, hx => AddOffsetsToTxnResponse.decodes hv x hx {}
  | .EndTxn, _, hv, _, x, hx => EndTxnResponse.decodes hv x hx {}
  | .WriteTxnMarkers, _, hv, _, x, hx => WriteTxnMarkersResponse.decodes hv x hx {}
  | .TxnOffsetCommit, _, hv, _, x, hx => TxnOffsetCommitResponse.decodes hv x hx {}
  | .DescribeAcls, _, hv, _, x, hx => DescribeAclsResponse.decodes hv x hx {}
  | .CreateAcls, _, hv, _, x, hx => CreateAclsResponse.decodes hv x hx {}
  | .DeleteAcls, _, hv, _, x, hx => DeleteAclsResponse.decodes hv x hx {}
  | .DescribeConfigs, _, hv, _, x, hx => DescribeConfigsResponse.decodes hv x hx {}
  | .AlterConfigs, _, hv, _, x, hx => AlterConfigsResponse.decodes hv x hx {}
  | .AlterReplicaLogDirs, _, hv, _, x, hx => AlterReplicaLogDirsResponse.decodes hv x hx {}
  | .DescribeLogDirs, _, hv, _, x, hx => DescribeLogDirsResponse.decodes hv x hx {}
  | .SaslAuthenticate, _, hv, _, x, hx => SaslAuthenticateResponse.decodes hv x hx {}
  | .CreatePartitions, _, hv, _, x, hx => CreatePartitionsResponse.decodes hv x hx {}
  | .CreateDelegationToken, _, hv, _, x, hx => CreateDelegationTokenResponse.decodes hv x hx {}
  | .RenewDelegationToken, _, hv, _, x, hx => RenewDelegationTokenResponse.decodes hv x hx {}
  | .ExpireDelegationToken, _, hv, _, x, hx => ExpireDelegationTokenResponse.decodes hv x hx {}
  | .DescribeDelegationToken, _, hv, _, x, hx => DescribeDelegationTokenResponse.decodes hv x hx {}
  | .DeleteGroups, _, hv, _, x, hx => DeleteGroupsResponse.decodes hv x hx {}
  | .ElectLeaders, _, hv, _, x, hx => ElectLeadersResponse.decodes hv x hx {}
  | .IncrementalAlterConfigs, _, hv, _, x, hx => IncrementalAlterConfigsResponse.decodes hv x hx {}
  | .AlterPartitionReassignments, _, hv, _, x, hx => AlterPartitionReassignmentsResponse.decodes hv x hx {}
  | .ListPartitionReassignments, _, hv, _, x, hx => ListPartitionReassignmentsResponse.decodes hv x hx {}
  | .OffsetDelete, _, hv, _, x, hx => OffsetDeleteResponse.decodes hv x hx {}

theorem Api.resp_parses : (a : Api) → (v : Int16) → (hv : 0 ≤ v) → (a = .CreateTopics → v < 5) →
    Protocol.Parses (a.resp.decode v a.resp.zero) ((Protocol.response a).message v) (a.respOf v)
  | .Produce, _, hv, _ => ProduceResponse.parses hv {}
  | .Fetch, _, hv, _ => FetchResponse.parses hv {}
  | .ListOffset, _, hv, _ => ListOffsetResponse.parses hv {}
  | .Metadata, _, hv, _ => MetadataResponse.parses hv {}
  | .LeaderAndIsr, _, hv, _ => LeaderAndIsrResponse.parses hv {}
  | .StopReplica, _, hv, _ => StopReplicaResponse.parses hv {}
  | .UpdateMetadata, _, hv, _ => UpdateMetadataResponse.parses hv {}
  | .ControlledShutdown, _, hv, _ => ControlledShutdownResponse.parses hv {}
  | .OffsetCommit, _, hv, _ => OffsetCommitResponse.parses hv {}
  | .OffsetFetch, _, hv, _ => OffsetFetchResponse.parses hv {}
  | .FindCoordinator, _, hv, _ => FindCoordinatorResponse.parses hv {}
  | .JoinGroup, _, hv, _ => JoinGroupResponse.parses hv {}
  | .Heartbeat, _, hv, _ => HeartbeatResponse.parses hv {}
  | .LeaveGroup, _, hv, _ => LeaveGroupResponse.parses hv {}
  | .SyncGroup, _, hv, _ => SyncGroupResponse.parses hv {}
  | .DescribeGroups, _, hv, _ => DescribeGroupsResponse.parses hv {}
  | .ListGroups, _, hv, _ => ListGroupsResponse.parses hv {}
  | .SaslHandshake, _, hv, _ => SaslHandshakeResponse.parses hv {}
  | .ApiVersions, _, hv, _ => ApiVersionsResponse.parses hv {}
  | .CreateTopics, _, hv, h => CreateTopicsResponse.parses hv (h rfl) {}
  | .DeleteTopics, _, hv, _ => DeleteTopicsResponse.parses hv {}
  | .DeleteRecords, _, hv, _ => DeleteRecordsResponse.parses hv {}
  | .InitProducerId, _, hv, _ => InitProducerIdResponse.parses hv {}
  | .OffsetForLeaderEpoch, _, hv, _ => OffsetForLeaderEpochResponse.parses hv {}
  | .AddPartitionsToTxn, _, hv, _ => AddPartitionsToTxnResponse.parses hv {}
  | .AddOffsetsToTxn, _, hv, _ => AddOffsetsToTxnResponse.parses hv {}
  | .EndTxn, _, hv, _ => EndTxnResponse.parses hv {}
  | .WriteTxnMarkers, _, hv, _ => WriteTxnMarkersResponse.parses hv {}
  | .TxnOffsetCommit, _, hv, _ => TxnOffsetCommitResponse.parses hv {}
  | .DescribeAcls, _, hv, _ => DescribeAclsResponse.parses hv {}
  | .CreateAcls, _, hv, _ => CreateAclsResponse.parses hv {}
  | .DeleteAcls, _, hv, _ => DeleteAclsResponse.parses hv {}
  | .DescribeConfigs, _, hv, _ => DescribeConfigsResponse.parses hv {}
  | .AlterConfigs, _, hv, _ => AlterConfigsResponse.parses hv {}
  | .AlterReplicaLogDirs, _, hv, _ => AlterReplicaLogDirsResponse.parses hv {}
  | .DescribeLogDirs, _, hv, _ => DescribeLogDirsResponse.parses hv {}
  | .SaslAuthenticate, _, hv, _ => SaslAuthenticateResponse.parses hv {}
  | .CreatePartitions, _, hv, _ => CreatePartitionsResponse.parses hv {}
  | .CreateDelegationToken, _, hv, _ => CreateDelegationTokenResponse.parses hv {}
  | .RenewDelegationToken, _, hv, _ => RenewDelegationTokenResponse.parses hv {}
  | .ExpireDelegationToken, _, hv, _ => ExpireDelegationTokenResponse.parses hv {}
  | .DescribeDelegationToken, _, hv, _ => DescribeDelegationTokenResponse.parses hv {}
  | .DeleteGroups, _, hv, _ => DeleteGroupsResponse.parses hv {}
  | .ElectLeaders, _, hv, _ => ElectLeadersResponse.parses hv {}
  | .IncrementalAlterConfigs, _, hv, _ => IncrementalAlterConfigsResponse.parses hv {}
  | .AlterPartitionReassignments, _, hv, _ => AlterPartitionReassignmentsResponse.parses hv {}
  | .ListPartitionReassignments, _, hv, _ => ListPartitionReassignmentsResponse.parses hv {}
  | .OffsetDelete, _, hv, _ => OffsetDeleteResponse.parses hv {}

theorem Api.resp_shown : (a : Api) → (v : Int16) → (hv : 0 ≤ v) → (a = .CreateTopics → v < 5) → (x : Protocol.Val) →
    (Protocol.response a).Typed v x →
    (Protocol.response a).shows v x (a.respVal (a.respOf v x)) = true
  | .Produce, _, hv, _, x, hx => ProduceResponse.shown hv x hx
  | .Fetch, _, hv, _, x, hx => FetchResponse.shown hv x hx
  | .ListOffset, _, hv, _, x, hx => ListOffsetResponse.shown hv x hx
  | .Metadata, _, hv, _, x, hx => MetadataResponse.shown hv x hx
  | .LeaderAndIsr, _, hv, _, x, hx => LeaderAndIsrResponse.shown hv x hx
  | .StopReplica, _, hv, _, x, hx => StopReplicaResponse.shown hv x hx
  | .UpdateMetadata, _, hv, _, x, hx => UpdateMetadataResponse.shown hv x hx
  | .ControlledShutdown, _, hv, _, x, hx => ControlledShutdownResponse.shown hv x hx
  | .OffsetCommit, _, hv, _, x, hx => OffsetCommitResponse.shown hv x hx
  | .OffsetFetch, _, hv, _, x, hx => OffsetFetchResponse.shown hv x hx
  | .FindCoordinator, _, hv, _, x, hx => FindCoordinatorResponse.shown hv x hx
  | .JoinGroup, _, hv, _, x, hx => JoinGroupResponse.shown hv x hx
  | .Heartbeat, _, hv, _, x, hx => HeartbeatResponse.shown hv x hx
  | .LeaveGroup, _, hv, _, x, hx => LeaveGroupResponse.shown hv x hx
  | .SyncGroup, _, hv, _, x, hx => SyncGroupResponse.shown hv x hx
  | .DescribeGroups, _, hv, _, x, hx => DescribeGroupsResponse.shown hv x hx
  | .ListGroups, _, hv, _, x, hx => ListGroupsResponse.shown hv x hx
  | .SaslHandshake, _, hv, _, x, hx => SaslHandshakeResponse.shown hv x hx
  | .ApiVersions, _, hv, _, x, hx => ApiVersionsResponse.shown hv x hx
  | .CreateTopics, _, hv, h, x, hx => CreateTopicsResponse.shown hv (h rfl) x hx
  | .DeleteTopics, _, hv, _, x, hx => DeleteTopicsResponse.shown hv x hx
  | .DeleteRecords, _, hv, _, x, hx => DeleteRecordsResponse.shown hv x hx
  | .InitProducerId, _, hv, _, x, hx => InitProducerIdResponse.shown hv x hx
  | .OffsetForLeaderEpoch, _, hv, _, x, hx => OffsetForLeaderEpochResponse.shown hv x hx
  | .AddPartitionsToTxn, _, hv, _, x, hx => AddPartitionsToTxnResponse.shown hv x hx
  | .AddOffsetsToTxn, _, hv, _, x, hx => AddOffsetsToTxnResponse.shown hv x hx
  | .EndTxn, _, hv, _, x, hx => EndTxnResponse.shown hv x hx
  | .WriteTxnMarkers, _, hv, _, x, hx => WriteTxnMarkersResponse.shown hv x hx
  | .TxnOffsetCommit, _, hv, _, x, hx => TxnOffsetCommitResponse.shown hv x hx
  | .DescribeAcls, _, hv, _, x, hx => DescribeAclsResponse.shown hv x hx
  | .CreateAcls, _, hv, _, x, hx => CreateAclsResponse.shown hv x hx
  | .DeleteAcls, _, hv, _, x, hx => DeleteAclsResponse.shown hv x hx
  | .DescribeConfigs, _, hv, _, x, hx => DescribeConfigsResponse.shown hv x hx
  | .AlterConfigs, _, hv, _, x, hx => AlterConfigsResponse.shown hv x hx
  | .AlterReplicaLogDirs, _, hv, _, x, hx => AlterReplicaLogDirsResponse.shown hv x hx
  | .DescribeLogDirs, _, hv, _, x, hx => DescribeLogDirsResponse.shown hv x hx
  | .SaslAuthenticate, _, hv, _, x, hx => SaslAuthenticateResponse.shown hv x hx
  | .CreatePartitions, _, hv, _, x, hx => CreatePartitionsResponse.shown hv x hx
  | .CreateDelegationToken, _, hv, _, x, hx => CreateDelegationTokenResponse.shown hv x hx
  | .RenewDelegationToken, _, hv, _, x, hx => RenewDelegationTokenResponse.shown hv x hx
  | .ExpireDelegationToken, _, hv, _, x, hx => ExpireDelegationTokenResponse.shown hv x hx
  | .DescribeDelegationToken, _, hv, _, x, hx => DescribeDelegationTokenResponse.shown hv x hx
  | .DeleteGroups, _, hv, _, x, hx => DeleteGroupsResponse.shown hv x hx
  | .ElectLeaders, _, hv, _, x, hx => ElectLeadersResponse.shown hv x hx
  | .IncrementalAlterConfigs, _, hv, _, x, hx => IncrementalAlterConfigsResponse.shown hv x hx
  | .AlterPartitionReassignments, _, hv, _, x, hx => AlterPartitionReassignmentsResponse.shown hv x hx
  | .ListPartitionReassignments, _, hv, _, x, hx => ListPartitionReassignmentsResponse.shown hv x hx
  | .OffsetDelete, _, hv, _, x, hx => OffsetDeleteResponse.shown hv x hx

end Kafka
