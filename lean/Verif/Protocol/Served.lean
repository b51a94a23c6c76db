import Verif.Protocol.Asked.Produce
import Verif.Protocol.Asked.Fetch
import Verif.Protocol.Asked.ListOffset
import Verif.Protocol.Asked.Metadata
import Verif.Protocol.Asked.LeaderAndIsr
import Verif.Protocol.Asked.StopReplica
import Verif.Protocol.Asked.UpdateMetadata
import Verif.Protocol.Asked.ControlledShutdown
import Verif.Protocol.Asked.OffsetCommit
import Verif.Protocol.Asked.OffsetFetch
import Verif.Protocol.Asked.FindCoordinator
import Verif.Protocol.Asked.JoinGroup
import Verif.Protocol.Asked.Heartbeat
import Verif.Protocol.Asked.LeaveGroup
import Verif.Protocol.Asked.SyncGroup
import Verif.Protocol.Asked.DescribeGroups
import Verif.Protocol.Asked.ListGroups
import Verif.Protocol.Asked.SaslHandshake
import Verif.Protocol.Asked.ApiVersions
import Verif.Protocol.Asked.CreateTopics
import Verif.Protocol.Asked.DeleteTopics
import Verif.Protocol.Asked.DeleteRecords
import Verif.Protocol.Asked.InitProducerId
import Verif.Protocol.Asked.OffsetForLeaderEpoch
import Verif.Protocol.Asked.AddPartitionsToTxn
import Verif.Protocol.Asked.AddOffsetsToTxn
import Verif.Protocol.Asked.EndTxn
import Verif.Protocol.Asked.WriteTxnMarkers
import Verif.Protocol.Asked.TxnOffsetCommit
import Verif.Protocol.Asked.DescribeAcls
import Verif.Protocol.Asked.CreateAcls
import Verif.Protocol.Asked.DeleteAcls
import Verif.Protocol.Asked.DescribeConfigs
import Verif.Protocol.Asked.AlterConfigs
import Verif.Protocol.Asked.AlterReplicaLogDirs
import Verif.Protocol.Asked.DescribeLogDirs
import Verif.Protocol.Asked.SaslAuthenticate
import Verif.Protocol.Asked.CreatePartitions
import Verif.Protocol.Asked.CreateDelegationToken
import Verif.Protocol.Asked.RenewDelegationToken
import Verif.Protocol.Asked.ExpireDelegationToken
import Verif.Protocol.Asked.DescribeDelegationToken
import Verif.Protocol.Asked.DeleteGroups
import Verif.Protocol.Asked.ElectLeaders
import Verif.Protocol.Asked.IncrementalAlterConfigs
import Verif.Protocol.Asked.AlterPartitionReassignments
import Verif.Protocol.Asked.ListPartitionReassignments
import Verif.Protocol.Asked.OffsetDelete
import Verif.Protocol.Conform
/-!
Generated by tools/gen_protocol.py: what a broker reads and writes with the messages of all APIs.
-/
namespace Kafka

open Msg

theorem Api.resp_conforms : (a : Api) → (v : Int16) → (hv : 0 ≤ v) → (a = .CreateTopics → v < 5) → (r : a.resp.T) →
    (Protocol.response a).wire false v (a.respVal r) = a.respLayout.wire v r
  | .Produce, _, hv, _, t => ProduceResponse.conforms hv t
  | .Fetch, _, hv, _, t => FetchResponse.conforms hv t
  | .ListOffset, _, hv, _, t => ListOffsetResponse.conforms hv t
  | .Metadata, _, hv, _, t => MetadataResponse.conforms hv t
  | .LeaderAndIsr, _, hv, _, t => LeaderAndIsrResponse.conforms hv t
  | .StopReplica, _, hv, _, t => StopReplicaResponse.conforms hv t
  | .UpdateMetadata, _, hv, _, t => UpdateMetadataResponse.conforms hv t
  | .ControlledShutdown, _, hv, _, t => ControlledShutdownResponse.conforms hv t
  | .OffsetCommit, _, hv, _, t => OffsetCommitResponse.conforms hv t
  | .OffsetFetch, _, hv, _, t => OffsetFetchResponse.conforms hv t
  | .FindCoordinator, _, hv, _, t => FindCoordinatorResponse.conforms hv t
  | .JoinGroup, _, hv, _, t => JoinGroupResponse.conforms hv t
  | .Heartbeat, _, hv, _, t => HeartbeatResponse.conforms hv t
  | .LeaveGroup, _, hv, _, t => LeaveGroupResponse.conforms hv t
  | .SyncGroup, _, hv, _, t => SyncGroupResponse.conforms hv t
  | .DescribeGroups, _, hv, _, t => DescribeGroupsResponse.conforms hv t
  | .ListGroups, _, hv, _, t => ListGroupsResponse.conforms hv t
  | .SaslHandshake, _, hv, _, t => SaslHandshakeResponse.conforms hv t
  | .ApiVersions, _, hv, _, t => ApiVersionsResponse.conforms hv t
  | .CreateTopics, _, hv, h, t => CreateTopicsResponse.conforms hv (h rfl) t
  | .DeleteTopics, _, hv, _, t => DeleteTopicsResponse.conforms hv t
  | .DeleteRecords, _, hv, _, t => DeleteRecordsResponse.conforms hv t
  | .InitProducerId, _, hv, _, t => InitProducerIdResponse.conforms hv t
  | .OffsetForLeaderEpoch, _, hv, _, t => OffsetForLeaderEpochResponse.conforms hv t
  | .AddPartitionsToTxn, _, hv, _, t => AddPartitionsToTxnResponse.conforms hv t
  | .AddOffsetsToTxn, _, hv, _, t => AddOffsetsToTxnResponse.conforms hv t
  | .EndTxn, _, hv, _, t => EndTxnResponse.conforms hv t
  | .WriteTxnMarkers, _, hv, _, t => WriteTxnMarkersResponse.conforms hv t
  | .TxnOffsetCommit, _, hv, _, t => TxnOffsetCommitResponse.conforms hv t
  | .DescribeAcls, _, hv, _, t => DescribeAclsResponse.conforms hv t
  | .CreateAcls, _, hv, _, t => CreateAclsResponse.conforms hv t
  | .DeleteAcls, _, hv, _, t => DeleteAclsResponse.conforms hv t
  | .DescribeConfigs, _, hv, _, t => DescribeConfigsResponse.conforms hv t
  | .AlterConfigs, _, hv, _, t => AlterConfigsResponse.conforms hv t
  | .AlterReplicaLogDirs, _, hv, _, t => AlterReplicaLogDirsResponse.conforms hv t
  | .DescribeLogDirs, _, hv, _, t => DescribeLogDirsResponse.conforms hv t
  | .SaslAuthenticate, _, hv, _, t => SaslAuthenticateResponse.conforms hv t
  | .CreatePartitions, _, hv, _, t => CreatePartitionsResponse.conforms hv t
  | .CreateDelegationToken, _, hv, _, t => CreateDelegationTokenResponse.conforms hv t
  | .RenewDelegationToken, _, hv, _, t => RenewDelegationTokenResponse.conforms hv t
  | .ExpireDelegationToken, _, hv, _, t => ExpireDelegationTokenResponse.conforms hv t
  | .DescribeDelegationToken, _, hv, _, t => DescribeDelegationTokenResponse.conforms hv t
  | .DeleteGroups, _, hv, _, t => DeleteGroupsResponse.conforms hv t
  | .ElectLeaders, _, hv, _, t => ElectLeadersResponse.conforms hv t
  | .IncrementalAlterConfigs, _, hv, _, t => IncrementalAlterConfigsResponse.conforms hv t
  | .AlterPartitionReassignments, _, hv, _, t => AlterPartitionReassignmentsResponse.conforms hv t
  | .ListPartitionReassignments, _, hv, _, t => ListPartitionReassignmentsResponse.conforms hv t
  | .OffsetDelete, _, hv, _, t => OffsetDeleteResponse.conforms hv t

/-- No slice of scalars is nil where the protocol has no null. -/
def Api.respFull : (a : Api) → Int16 → a.resp.T → Prop
  | .Produce => ProduceResponse.Full
  | .Fetch => FetchResponse.Full
  | .ListOffset => ListOffsetResponse.Full
  | .Metadata => MetadataResponse.Full
  | .LeaderAndIsr => LeaderAndIsrResponse.Full
  | .StopReplica => StopReplicaResponse.Full
  | .UpdateMetadata => UpdateMetadataResponse.Full
  | .ControlledShutdown => ControlledShutdownResponse.Full
  | .OffsetCommit => OffsetCommitResponse.Full
  | .OffsetFetch => OffsetFetchResponse.Full
  | .FindCoordinator => FindCoordinatorResponse.Full
  | .JoinGroup => JoinGroupResponse.Full
  | .Heartbeat => HeartbeatResponse.Full
  | .LeaveGroup => LeaveGroupResponse.Full
  | .SyncGroup => SyncGroupResponse.Full
  | .DescribeGroups => DescribeGroupsResponse.Full
  | .ListGroups => ListGroupsResponse.Full
  | .SaslHandshake => SaslHandshakeResponse.Full
  | .ApiVersions => ApiVersionsResponse.Full
  | .CreateTopics => CreateTopicsResponse.Full
  | .DeleteTopics => DeleteTopicsResponse.Full
  | .DeleteRecords => DeleteRecordsResponse.Full
  | .InitProducerId => InitProducerIdResponse.Full
  | .OffsetForLeaderEpoch => OffsetForLeaderEpochResponse.Full
  | .AddPartitionsToTxn => AddPartitionsToTxnResponse.Full
  | .AddOffsetsToTxn => AddOffsetsToTxnResponse.Full
  | .EndTxn => EndTxnResponse.Full
  | .WriteTxnMarkers => WriteTxnMarkersResponse.Full
  | .TxnOffsetCommit => TxnOffsetCommitResponse.Full
  | .DescribeAcls => DescribeAclsResponse.Full
  | .CreateAcls => CreateAclsResponse.Full
  | .DeleteAcls => DeleteAclsResponse.Full
  | .DescribeConfigs => DescribeConfigsResponse.Full
  | .AlterConfigs => AlterConfigsResponse.Full
  | .AlterReplicaLogDirs => AlterReplicaLogDirsResponse.Full
  | .DescribeLogDirs => DescribeLogDirsResponse.Full
  | .SaslAuthenticate => SaslAuthenticateResponse.Full
  | .CreatePartitions => CreatePartitionsResponse.Full
  | .CreateDelegationToken => CreateDelegationTokenResponse.Full
  | .RenewDelegationToken => RenewDelegationTokenResponse.Full
  | .ExpireDelegationToken => ExpireDelegationTokenResponse.Full
  | .DescribeDelegationToken => DescribeDelegationTokenResponse.Full
  | .DeleteGroups => DeleteGroupsResponse.Full
  | .ElectLeaders => ElectLeadersResponse.Full
  | .IncrementalAlterConfigs => IncrementalAlterConfigsResponse.Full
  | .AlterPartitionReassignments => AlterPartitionReassignmentsResponse.Full
  | .ListPartitionReassignments => ListPartitionReassignmentsResponse.Full
  | .OffsetDelete => OffsetDeleteResponse.Full

theorem Api.resp_valid : (a : Api) → (v : Int16) → (hv : 0 ≤ v) → (a = .CreateTopics → v < 5) → (r : a.resp.T) →
    a.respLayout.Fits v r → a.respFull v r → (Protocol.response a).Valid true v (a.respVal r)
  | .Produce, _, hv, _, t, hf, hF => ProduceResponse.valid hv t hf hF
  | .Fetch, _, hv, _, t, hf, hF => FetchResponse.valid hv t hf hF
  | .ListOffset, _, hv, _, t, hf, hF => ListOffsetResponse.valid hv t hf hF
  | .Metadata, _, hv, _, t, hf, hF => MetadataResponse.valid hv t hf hF
  | .LeaderAndIsr, _, hv, _, t, hf, hF => LeaderAndIsrResponse.valid hv t hf hF
  | .StopReplica, _, hv, _, t, hf, hF => StopReplicaResponse.valid hv t hf hF
  | .UpdateMetadata, _, hv, _, t, hf, hF => UpdateMetadataResponse.valid hv t hf hF
  | .ControlledShutdown, _, hv, _, t, hf, hF => ControlledShutdownResponse.valid hv t hf hF
  | .OffsetCommit, _, hv, _, t, hf, hF => OffsetCommitResponse.valid hv t hf hF
  | .OffsetFetch, _, hv, _, t, hf, hF => OffsetFetchResponse.valid hv t hf hF
  | .FindCoordinator, _, hv, _, t, hf, hF => FindCoordinatorResponse.valid hv t hf hF
  | .JoinGroup, _, hv, _, t, hf, hF => JoinGroupResponse.valid hv t hf hF
  | .Heartbeat, _, hv, _, t, hf, hF => HeartbeatResponse.valid hv t hf hF
  | .LeaveGroup, _, hv, _, t, hf, hF => LeaveGroupResponse.valid hv t hf hF
  | .SyncGroup, _, hv, _, t, hf, hF => SyncGroupResponse.valid hv t hf hF
  | .DescribeGroups, _, hv, _, t, hf, hF => DescribeGroupsResponse.valid hv t hf hF
  | .ListGroups, _, hv, _, t, hf, hF => ListGroupsResponse.valid hv t hf hF
  | .SaslHandshake, _, hv, _, t, hf, hF => SaslHandshakeResponse.valid hv t hf hF
  | .ApiVersions, _, hv, _, t, hf, hF => ApiVersionsResponse.valid hv t hf hF
  | .CreateTopics, _, hv, h, t, hf, hF => CreateTopicsResponse.valid hv (h rfl) t hf hF
  | .DeleteTopics, _, hv, _, t, hf, hF => DeleteTopicsResponse.valid hv t hf hF
  | .DeleteRecords, _, hv, _, t, hf, hF => DeleteRecordsResponse.valid hv t hf hF
  | .InitProducerId, _, hv, _, t, hf, hF => InitProducerIdResponse.valid hv t hf hF
  | .OffsetForLeaderEpoch, _, hv, _, t, hf, hF => OffsetForLeaderEpochResponse.valid hv t hf hF
  | .AddPartitionsToTxn, _, hv, _, t, hf, hF => AddPartitionsToTxnResponse.valid hv t hf hF
  | .AddOffsetsToTxn, _, hv, _, t, hf, hF => AddOffsetsToTxnResponse.valid hv t hf hF
  | .EndTxn, _, hv, _, t, hf, hF => EndTxnResponse.valid hv t hf hF
  | .WriteTxnMarkers, _, hv, _, t, hf, hF => WriteTxnMarkersResponse.valid hv t hf hF
  | .TxnOffsetCommit, _, hv, _, t, hf, hF => TxnOffsetCommitResponse.valid hv t hf hF
  | .DescribeAcls, _, hv, _, t, hf, hF => DescribeAclsResponse.valid hv t hf hF
  | .CreateAcls, _, hv, _, t, hf, hF => CreateAclsResponse.valid hv t hf hF
  | .DeleteAcls, _, hv, _, t, hf, hF => DeleteAclsResponse.valid hv t hf hF
  | .DescribeConfigs, _, hv, _, t, hf, hF => DescribeConfigsResponse.valid hv t hf hF
  | .AlterConfigs, _, hv, _, t, hf, hF => AlterConfigsResponse.valid hv t hf hF
  | .AlterReplicaLogDirs, _, hv, _, t, hf, hF => AlterReplicaLogDirsResponse.valid hv t hf hF
  | .DescribeLogDirs, _, hv, _, t, hf, hF => DescribeLogDirsResponse.valid hv t hf hF
  | .SaslAuthenticate, _, hv, _, t, hf, hF => SaslAuthenticateResponse.valid hv t hf hF
  | .CreatePartitions, _, hv, _, t, hf, hF => CreatePartitionsResponse.valid hv t hf hF
  | .CreateDelegationToken, _, hv, _, t, hf, hF => CreateDelegationTokenResponse.valid hv t hf hF
  | .RenewDelegationToken, _, hv, _, t, hf, hF => RenewDelegationTokenResponse.valid hv t hf hF
  | .ExpireDelegationToken, _, hv, _, t, hf, hF => ExpireDelegationTokenResponse.valid hv t hf hF
  | .DescribeDelegationToken, _, hv, _, t, hf, hF => DescribeDelegationTokenResponse.valid hv t hf hF
  | .DeleteGroups, _, hv, _, t, hf, hF => DeleteGroupsResponse.valid hv t hf hF
  | .ElectLeaders, _, hv, _, t, hf, hF => ElectLeadersResponse.valid hv t hf hF
  | .IncrementalAlterConfigs, _, hv, _, t, hf, hF => IncrementalAlterConfigsResponse.valid hv t hf hF
  | .AlterPartitionReassignments, _, hv, _, t, hf, hF => AlterPartitionReassignmentsResponse.valid hv t hf hF
  | .ListPartitionReassignments, _, hv, _, t, hf, hF => ListPartitionReassignmentsResponse.valid hv t hf hF
  | .OffsetDelete, _, hv, _, t, hf, hF => OffsetDeleteResponse.valid hv t hf hF

/-- What is read from the request `x`. -/
def Api.reqOf : (a : Api) → Int16 → Protocol.Val → a.req.T
  | .Produce, v, x => ProduceRequest.of v x {}
  | .Fetch, v, x => FetchRequest.of v x {}
  | .ListOffset, v, x => ListOffsetRequest.of v x {}
  | .Metadata, v, x => MetadataRequest.of v x {}
  | .LeaderAndIsr, v, x => LeaderAndIsrRequest.of v x {}
  | .StopReplica, v, x => StopReplicaRequest.of v x {}
  | .UpdateMetadata, v, x => UpdateMetadataRequest.of v x {}
  | .ControlledShutdown, v, x => ControlledShutdownRequest.of v x {}
  | .OffsetCommit, v, x => OffsetCommitRequest.of v x {}
  | .OffsetFetch, v, x => OffsetFetchRequest.of v x {}
  | .FindCoordinator, v, x => FindCoordinatorRequest.of v x {}
  | .JoinGroup, v, x => JoinGroupRequest.of v x {}
  | .Heartbeat, v, x => HeartbeatRequest.of v x {}
  | .LeaveGroup, v, x => LeaveGroupRequest.of v x {}
  | .SyncGroup, v, x => SyncGroupRequest.of v x {}
  | .DescribeGroups, v, x => DescribeGroupsRequest.of v x {}
  | .ListGroups, v, x => ListGroupsRequest.of v x {}
  | .SaslHandshake, v, x => SaslHandshakeRequest.of v x {}
  | .ApiVersions, v, x => ApiVersionsRequest.of v x {}
  | .CreateTopics, v, x => CreateTopicsRequest.of v x {}
  | .DeleteTopics, v, x => DeleteTopicsRequest.of v x {}
  | .DeleteRecords, v, x => DeleteRecordsRequest.of v x {}
  | .InitProducerId, v, x => InitProducerIdRequest.of v x {}
  | .OffsetForLeaderEpoch, v, x => OffsetForLeaderEpochRequest.of v x {}
  | .AddPartitionsToTxn, v, x => AddPartitionsToTxnRequest.of v x {}
  | .AddOffsetsToTxn, v, x => AddOffsetsToTxnRequest.of v x {}
  | .EndTxn, v, x => EndTxnRequest.of v x {}
  | .WriteTxnMarkers, v, x => WriteTxnMarkersRequest.of v x {}
  | .TxnOffsetCommit, v, x => TxnOffsetCommitRequest.of v x {}
  | .DescribeAcls, v, x => DescribeAclsRequest.of v x {}
  | .CreateAcls, v, x => CreateAclsRequest.of v x {}
  | .DeleteAcls, v, x => DeleteAclsRequest.of v x {}
  | .DescribeConfigs, v, x => DescribeConfigsRequest.of v x {}
  | .AlterConfigs, v, x => AlterConfigsRequest.of v x {}
  | .AlterReplicaLogDirs, v, x => AlterReplicaLogDirsRequest.of v x {}
  | .DescribeLogDirs, v, x => DescribeLogDirsRequest.of v x {}
  | .SaslAuthenticate, v, x => SaslAuthenticateRequest.of v x {}
  | .CreatePartitions, v, x => CreatePartitionsRequest.of v x {}
  | .CreateDelegationToken, v, x => CreateDelegationTokenRequest.of v x {}
  | .RenewDelegationToken, v, x => RenewDelegationTokenRequest.of v x {}
  | .ExpireDelegationToken, v, x => ExpireDelegationTokenRequest.of v x {}
  | .DescribeDelegationToken, v, x => DescribeDelegationTokenRequest.of v x {}
  | .DeleteGroups, v, x => DeleteGroupsRequest.of v x {}
  | .ElectLeaders, v, x => ElectLeadersRequest.of v x {}
  | .IncrementalAlterConfigs, v, x => IncrementalAlterConfigsRequest.of v x {}
  | .AlterPartitionReassignments, v, x => AlterPartitionReassignmentsRequest.of v x {}
  | .ListPartitionReassignments, v, x => ListPartitionReassignmentsRequest.of v x {}
  | .OffsetDelete, v, x => OffsetDeleteRequest.of v x {}

/-- A request as a value of the protocol, with zero for the one field of the protocol that the client does not have
(the commit timestamp of OffsetCommit version 1). -/
def Api.reqAsked : (a : Api) → a.req.T → Protocol.Val
  | .Produce => ProduceRequest.val
  | .Fetch => FetchRequest.val
  | .ListOffset => ListOffsetRequest.val
  | .Metadata => MetadataRequest.val
  | .LeaderAndIsr => LeaderAndIsrRequest.val
  | .StopReplica => StopReplicaRequest.val
  | .UpdateMetadata => UpdateMetadataRequest.val
  | .ControlledShutdown => ControlledShutdownRequest.val
  | .OffsetCommit => OffsetCommitRequest.asked
  | .OffsetFetch => OffsetFetchRequest.val
  | .FindCoordinator => FindCoordinatorRequest.val
  | .JoinGroup => JoinGroupRequest.val
  | .Heartbeat => HeartbeatRequest.val
  | .LeaveGroup => LeaveGroupRequest.val
  | .SyncGroup => SyncGroupRequest.val
  | .DescribeGroups => DescribeGroupsRequest.val
  | .ListGroups => ListGroupsRequest.val
  | .SaslHandshake => SaslHandshakeRequest.val
  | .ApiVersions => ApiVersionsRequest.val
  | .CreateTopics => CreateTopicsRequest.val
  | .DeleteTopics => DeleteTopicsRequest.val
  | .DeleteRecords => DeleteRecordsRequest.val
  | .InitProducerId => InitProducerIdRequest.val
  | .OffsetForLeaderEpoch => OffsetForLeaderEpochRequest.val
  | .AddPartitionsToTxn => AddPartitionsToTxnRequest.val
  | .AddOffsetsToTxn => AddOffsetsToTxnRequest.val
  | .EndTxn => EndTxnRequest.val
  | .WriteTxnMarkers => WriteTxnMarkersRequest.val
  | .TxnOffsetCommit => TxnOffsetCommitRequest.val
  | .DescribeAcls => DescribeAclsRequest.val
  | .CreateAcls => CreateAclsRequest.val
  | .DeleteAcls => DeleteAclsRequest.val
  | .DescribeConfigs => DescribeConfigsRequest.val
  | .AlterConfigs => AlterConfigsRequest.val
  | .AlterReplicaLogDirs => AlterReplicaLogDirsRequest.val
  | .DescribeLogDirs => DescribeLogDirsRequest.val
  | .SaslAuthenticate => SaslAuthenticateRequest.val
  | .CreatePartitions => CreatePartitionsRequest.val
  | .CreateDelegationToken => CreateDelegationTokenRequest.val
  | .RenewDelegationToken => RenewDelegationTokenRequest.val
  | .ExpireDelegationToken => ExpireDelegationTokenRequest.val
  | .DescribeDelegationToken => DescribeDelegationTokenRequest.val
  | .DeleteGroups => DeleteGroupsRequest.val
  | .ElectLeaders => ElectLeadersRequest.val
  | .IncrementalAlterConfigs => IncrementalAlterConfigsRequest.val
  | .AlterPartitionReassignments => AlterPartitionReassignmentsRequest.val
  | .ListPartitionReassignments => ListPartitionReassignmentsRequest.val
  | .OffsetDelete => OffsetDeleteRequest.val

theorem Api.req_asked_conforms : (a : Api) → (v : Int16) → (hv : 0 ≤ v) → (a = .OffsetCommit → v ≠ 1) → (r : a.req.T) →
    (Protocol.request a).wire false v (a.reqAsked r) = a.reqLayout.wire v r
  | .Produce, _, hv, _, t => ProduceRequest.conforms hv t
  | .Fetch, _, hv, _, t => FetchRequest.conforms hv t
  | .ListOffset, _, hv, _, t => ListOffsetRequest.conforms hv t
  | .Metadata, _, hv, _, t => MetadataRequest.conforms hv t
  | .LeaderAndIsr, _, hv, _, t => LeaderAndIsrRequest.conforms hv t
  | .StopReplica, _, hv, _, t => StopReplicaRequest.conforms hv t
  | .UpdateMetadata, _, hv, _, t => UpdateMetadataRequest.conforms hv t
  | .ControlledShutdown, _, hv, _, t => ControlledShutdownRequest.conforms hv t
  | .OffsetCommit, _, hv, h, t => OffsetCommitRequest.asked_conforms hv (h rfl) t
  | .OffsetFetch, _, hv, _, t => OffsetFetchRequest.conforms hv t
  | .FindCoordinator, _, hv, _, t => FindCoordinatorRequest.conforms hv t
  | .JoinGroup, _, hv, _, t => JoinGroupRequest.conforms hv t
  | .Heartbeat, _, hv, _, t => HeartbeatRequest.conforms hv t
  | .LeaveGroup, _, hv, _, t => LeaveGroupRequest.conforms hv t
  | .SyncGroup, _, hv, _, t => SyncGroupRequest.conforms hv t
  | .DescribeGroups, _, hv, _, t => DescribeGroupsRequest.conforms hv t
  | .ListGroups, _, hv, _, t => ListGroupsRequest.conforms hv t
  | .SaslHandshake, _, hv, _, t => SaslHandshakeRequest.conforms hv t
  | .ApiVersions, _, hv, _, t => ApiVersionsRequest.conforms hv t
  | .CreateTopics, _, hv, _, t => CreateTopicsRequest.conforms hv t
  | .DeleteTopics, _, hv, _, t => DeleteTopicsRequest.conforms hv t
  | .DeleteRecords, _, hv, _, t => DeleteRecordsRequest.conforms hv t
  | .InitProducerId, _, hv, _, t => InitProducerIdRequest.conforms hv t
  | .OffsetForLeaderEpoch, _, hv, _, t => OffsetForLeaderEpochRequest.conforms hv t
  | .AddPartitionsToTxn, _, hv, _, t => AddPartitionsToTxnRequest.conforms hv t
  | .AddOffsetsToTxn, _, hv, _, t => AddOffsetsToTxnRequest.conforms hv t
  | .EndTxn, _, hv, _, t => EndTxnRequest.conforms hv t
  | .WriteTxnMarkers, _, hv, _, t => WriteTxnMarkersRequest.conforms hv t
  | .TxnOffsetCommit, _, hv, _, t => TxnOffsetCommitRequest.conforms hv t
  | .DescribeAcls, _, hv, _, t => DescribeAclsRequest.conforms hv t
  | .CreateAcls, _, hv, _, t => CreateAclsRequest.conforms hv t
  | .DeleteAcls, _, hv, _, t => DeleteAclsRequest.conforms hv t
  | .DescribeConfigs, _, hv, _, t => DescribeConfigsRequest.conforms hv t
  | .AlterConfigs, _, hv, _, t => AlterConfigsRequest.conforms hv t
  | .AlterReplicaLogDirs, _, hv, _, t => AlterReplicaLogDirsRequest.conforms hv t
  | .DescribeLogDirs, _, hv, _, t => DescribeLogDirsRequest.conforms hv t
  | .SaslAuthenticate, _, hv, _, t => SaslAuthenticateRequest.conforms hv t
  | .CreatePartitions, _, hv, _, t => CreatePartitionsRequest.conforms hv t
  | .CreateDelegationToken, _, hv, _, t => CreateDelegationTokenRequest.conforms hv t
  | .RenewDelegationToken, _, hv, _, t => RenewDelegationTokenRequest.conforms hv t
  | .ExpireDelegationToken, _, hv, _, t => ExpireDelegationTokenRequest.conforms hv t
  | .DescribeDelegationToken, _, hv, _, t => DescribeDelegationTokenRequest.conforms hv t
  | .DeleteGroups, _, hv, _, t => DeleteGroupsRequest.conforms hv t
  | .ElectLeaders, _, hv, _, t => ElectLeadersRequest.conforms hv t
  | .IncrementalAlterConfigs, _, hv, _, t => IncrementalAlterConfigsRequest.conforms hv t
  | .AlterPartitionReassignments, _, hv, _, t => AlterPartitionReassignmentsRequest.conforms hv t
  | .ListPartitionReassignments, _, hv, _, t => ListPartitionReassignmentsRequest.conforms hv t
  | .OffsetDelete, _, hv, _, t => OffsetDeleteRequest.conforms hv t

theorem Api.req_decodes : (a : Api) → (v : Int16) → (hv : 0 ≤ v) → (a = .OffsetCommit → v ≠ 1) → (x : Protocol.Val) →
    (Protocol.request a).Valid false v x →
    Reads (a.req.decode v a.req.zero) ((Protocol.request a).wire false v x) (a.reqOf v x)
  | .Produce, _, hv, _, x, hx => ProduceRequest.decodes hv x hx {}
  | .Fetch, _, hv, _, x, hx => FetchRequest.decodes hv x hx {}
  | .ListOffset, _, hv, _, x, hx => ListOffsetRequest.decodes hv x hx {}
  | .Metadata, _, hv, _, x, hx => MetadataRequest.decodes hv x hx {}
  | .LeaderAndIsr, _, hv, _, x, hx => LeaderAndIsrRequest.decodes hv x hx {}
  | .StopReplica, _, hv, _, x, hx => StopReplicaRequest.decodes hv x hx {}
  | .UpdateMetadata, _, hv, _, x, hx => UpdateMetadataRequest.decodes hv x hx {}
  | .ControlledShutdown, _, hv, _, x, hx => ControlledShutdownRequest.decodes hv x hx {}
  | .OffsetCommit, _, hv, h, x, hx => OffsetCommitRequest.decodes hv (h rfl) x hx {}
  | .OffsetFetch, _, hv, _, x, hx => OffsetFetchRequest.decodes hv x hx {}
  | .FindCoordinator, _, hv, _, x, hx => FindCoordinatorRequest.decodes hv x hx {}
  | .JoinGroup, _, hv, _, x, hx => JoinGroupRequest.decodes hv x hx {}
  | .Heartbeat, _, hv, _, x, hx => HeartbeatRequest.decodes hv x hx {}
  | .LeaveGroup, _, hv, _, x, hx => LeaveGroupRequest.decodes hv x hx {}
  | .SyncGroup, _, hv, _, x, hx => SyncGroupRequest.decodes hv x hx {}
  | .DescribeGroups, _, hv, _, x, hx => DescribeGroupsRequest.decodes hv x hx {}
  | .ListGroups, _, hv, _, x, hx => ListGroupsRequest.decodes hv x hx {}
  | .SaslHandshake, _, hv, _, x, hx => SaslHandshakeRequest.decodes hv x hx {}
  | .ApiVersions, _, hv, _, x, hx => ApiVersionsRequest.decodes hv x hx {}
  | .CreateTopics, _, hv, _, x, hx => CreateTopicsRequest.decodes hv x hx {}
  | .DeleteTopics, _, hv, _, x, hx => DeleteTopicsRequest.decodes hv x hx {}
  | .DeleteRecords, _, hv, _, x, hx => DeleteRecordsRequest.decodes hv x hx {}
  | .InitProducerId, _, hv, _, x, hx => InitProducerIdRequest.decodes hv x hx {}
  | .OffsetForLeaderEpoch, _, hv, _, x, hx => OffsetForLeaderEpochRequest.decodes hv x hx {}
  | .AddPartitionsToTxn, _, hv, _, x, hx => AddPartitionsToTxnRequest.decodes hv x hx {}
  | .AddOffsetsToTxn, _, hv, _, x, hx => AddOffsetsToTxnRequest.decodes hv x hx {}
  | .EndTxn, _, hv, _, x, hx => EndTxnRequest.decodes hv x hx {}
  | .WriteTxnMarkers, _, hv, _, x, hx => WriteTxnMarkersRequest.decodes hv x hx {}
  | .TxnOffsetCommit, _, hv, _, x, hx => TxnOffsetCommitRequest.decodes hv x hx {}
  | .DescribeAcls, _, hv, _, x, hx => DescribeAclsRequest.decodes hv x hx {}
  | .CreateAcls, _, hv, _, x, hx => CreateAclsRequest.decodes hv x hx {}
  | .DeleteAcls, _, hv, _, x, hx => DeleteAclsRequest.decodes hv x hx {}
  | .DescribeConfigs, _, hv, _, x, hx => DescribeConfigsRequest.decodes hv x hx {}
  | .AlterConfigs, _, hv, _, x, hx => AlterConfigsRequest.decodes hv x hx {}
  | .AlterReplicaLogDirs, _, hv, _, x, hx => AlterReplicaLogDirsRequest.decodes hv x hx {}
  | .DescribeLogDirs, _, hv, _, x, hx => DescribeLogDirsRequest.decodes hv x hx {}
  | .SaslAuthenticate, _, hv, _, x, hx => SaslAuthenticateRequest.decodes hv x hx {}
  | .CreatePartitions, _, hv, _, x, hx => CreatePartitionsRequest.decodes hv x hx {}
  | .CreateDelegationToken, _, hv, _, x, hx => CreateDelegationTokenRequest.decodes hv x hx {}
  | .RenewDelegationToken, _, hv, _, x, hx => RenewDelegationTokenRequest.decodes hv x hx {}
  | .ExpireDelegationToken, _, hv, _, x, hx => ExpireDelegationTokenRequest.decodes hv x hx {}
  | .DescribeDelegationToken, _, hv, _, x, hx => DescribeDelegationTokenRequest.decodes hv x hx {}
  | .DeleteGroups, _, hv, _, x, hx => DeleteGroupsRequest.decodes hv x hx {}
  | .ElectLeaders, _, hv, _, x, hx => ElectLeadersRequest.decodes hv x hx {}
  | .IncrementalAlterConfigs, _, hv, _, x, hx => IncrementalAlterConfigsRequest.decodes hv x hx {}
  | .AlterPartitionReassignments, _, hv, _, x, hx => AlterPartitionReassignmentsRequest.decodes hv x hx {}
  | .ListPartitionReassignments, _, hv, _, x, hx => ListPartitionReassignmentsRequest.decodes hv x hx {}
  | .OffsetDelete, _, hv, _, x, hx => OffsetDeleteRequest.decodes hv x hx {}

theorem Api.req_parses : (a : Api) → (v : Int16) → (hv : 0 ≤ v) → (a = .OffsetCommit → v ≠ 1) →
    Protocol.Parses (a.req.decode v a.req.zero) ((Protocol.request a).message v) (a.reqOf v)
  | .Produce, _, hv, _ => ProduceRequest.parses hv {}
  | .Fetch, _, hv, _ => FetchRequest.parses hv {}
  | .ListOffset, _, hv, _ => ListOffsetRequest.parses hv {}
  | .Metadata, _, hv, _ => MetadataRequest.parses hv {}
  | .LeaderAndIsr, _, hv, _ => LeaderAndIsrRequest.parses hv {}
  | .StopReplica, _, hv, _ => StopReplicaRequest.parses hv {}
  | .UpdateMetadata, _, hv, _ => UpdateMetadataRequest.parses hv {}
  | .ControlledShutdown, _, hv, _ => ControlledShutdownRequest.parses hv {}
  | .OffsetCommit, _, hv, h => OffsetCommitRequest.parses hv (h rfl) {}
  | .OffsetFetch, _, hv, _ => OffsetFetchRequest.parses hv {}
  | .FindCoordinator, _, hv, _ => FindCoordinatorRequest.parses hv {}
  | .JoinGroup, _, hv, _ => JoinGroupRequest.parses hv {}
  | .Heartbeat, _, hv, _ => HeartbeatRequest.parses hv {}
  | .LeaveGroup, _, hv, _ => LeaveGroupRequest.parses hv {}
  | .SyncGroup, _, hv, _ => SyncGroupRequest.parses hv {}
  | .DescribeGroups, _, hv, _ => DescribeGroupsRequest.parses hv {}
  | .ListGroups, _, hv, _ => ListGroupsRequest.parses hv {}
  | .SaslHandshake, _, hv, _ => SaslHandshakeRequest.parses hv {}
  | .ApiVersions, _, hv, _ => ApiVersionsRequest.parses hv {}
  | .CreateTopics, _, hv, _ => CreateTopicsRequest.parses hv {}
  | .DeleteTopics, _, hv, _ => DeleteTopicsRequest.parses hv {}
  | .DeleteRecords, _, hv, _ => DeleteRecordsRequest.parses hv {}
  | .InitProducerId, _, hv, _ => InitProducerIdRequest.parses hv {}
  | .OffsetForLeaderEpoch, _, hv, _ => OffsetForLeaderEpochRequest.parses hv {}
  | .AddPartitionsToTxn, _, hv, _ => AddPartitionsToTxnRequest.parses hv {}
  | .AddOffsetsToTxn, _, hv, _ => AddOffsetsToTxnRequest.parses hv {}
  | .EndTxn, _, hv, _ => EndTxnRequest.parses hv {}
  | .WriteTxnMarkers, _, hv, _ => WriteTxnMarkersRequest.parses hv {}
  | .TxnOffsetCommit, _, hv, _ => TxnOffsetCommitRequest.parses hv {}
  | .DescribeAcls, _, hv, _ => DescribeAclsRequest.parses hv {}
  | .CreateAcls, _, hv, _ => CreateAclsRequest.parses hv {}
  | .DeleteAcls, _, hv, _ => DeleteAclsRequest.parses hv {}
  | .DescribeConfigs, _, hv, _ => DescribeConfigsRequest.parses hv {}
  | .AlterConfigs, _, hv, _ => AlterConfigsRequest.parses hv {}
  | .AlterReplicaLogDirs, _, hv, _ => AlterReplicaLogDirsRequest.parses hv {}
  | .DescribeLogDirs, _, hv, _ => DescribeLogDirsRequest.parses hv {}
  | .SaslAuthenticate, _, hv, _ => SaslAuthenticateRequest.parses hv {}
  | .CreatePartitions, _, hv, _ => CreatePartitionsRequest.parses hv {}
  | .CreateDelegationToken, _, hv, _ => CreateDelegationTokenRequest.parses hv {}
  | .RenewDelegationToken, _, hv, _ => RenewDelegationTokenRequest.parses hv {}
  | .ExpireDelegationToken, _, hv, _ => ExpireDelegationTokenRequest.parses hv {}
  | .DescribeDelegationToken, _, hv, _ => DescribeDelegationTokenRequest.parses hv {}
  | .DeleteGroups, _, hv, _ => DeleteGroupsRequest.parses hv {}
  | .ElectLeaders, _, hv, _ => ElectLeadersRequest.parses hv {}
  | .IncrementalAlterConfigs, _, hv, _ => IncrementalAlterConfigsRequest.parses hv {}
  | .AlterPartitionReassignments, _, hv, _ => AlterPartitionReassignmentsRequest.parses hv {}
  | .ListPartitionReassignments, _, hv, _ => ListPartitionReassignmentsRequest.parses hv {}
  | .OffsetDelete, _, hv, _ => OffsetDeleteRequest.parses hv {}

theorem Api.req_shown : (a : Api) → (v : Int16) → (hv : 0 ≤ v) → (a = .OffsetCommit → v ≠ 1) → (x : Protocol.Val) →
    (Protocol.request a).Typed v x →
    (Protocol.request a).shows v x (a.reqAsked (a.reqOf v x)) = true
  | .Produce, _, hv, _, x, hx => ProduceRequest.shown hv x hx
  | .Fetch, _, hv, _, x, hx => FetchRequest.shown hv x hx
  | .ListOffset, _, hv, _, x, hx => ListOffsetRequest.shown hv x hx
  | .Metadata, _, hv, _, x, hx => MetadataRequest.shown hv x hx
  | .LeaderAndIsr, _, hv, _, x, hx => LeaderAndIsrRequest.shown hv x hx
  | .StopReplica, _, hv, _, x, hx => StopReplicaRequest.shown hv x hx
  | .UpdateMetadata, _, hv, _, x, hx => UpdateMetadataRequest.shown hv x hx
  | .ControlledShutdown, _, hv, _, x, hx => ControlledShutdownRequest.shown hv x hx
  | .OffsetCommit, _, hv, h, x, hx => OffsetCommitRequest.shown hv (h rfl) x hx
  | .OffsetFetch, _, hv, _, x, hx => OffsetFetchRequest.shown hv x hx
  | .FindCoordinator, _, hv, _, x, hx => FindCoordinatorRequest.shown hv x hx
  | .JoinGroup, _, hv, _, x, hx => JoinGroupRequest.shown hv x hx
  | .Heartbeat, _, hv, _, x, hx => HeartbeatRequest.shown hv x hx
  | .LeaveGroup, _, hv, _, x, hx => LeaveGroupRequest.shown hv x hx
  | .SyncGroup, _, hv, _, x, hx => SyncGroupRequest.shown hv x hx
  | .DescribeGroups, _, hv, _, x, hx => DescribeGroupsRequest.shown hv x hx
  | .ListGroups, _, hv, _, x, hx => ListGroupsRequest.shown hv x hx
  | .SaslHandshake, _, hv, _, x, hx => SaslHandshakeRequest.shown hv x hx
  | .ApiVersions, _, hv, _, x, hx => ApiVersionsRequest.shown hv x hx
  | .CreateTopics, _, hv, _, x, hx => CreateTopicsRequest.shown hv x hx
  | .DeleteTopics, _, hv, _, x, hx => DeleteTopicsRequest.shown hv x hx
  | .DeleteRecords, _, hv, _, x, hx => DeleteRecordsRequest.shown hv x hx
  | .InitProducerId, _, hv, _, x, hx => InitProducerIdRequest.shown hv x hx
  | .OffsetForLeaderEpoch, _, hv, _, x, hx => OffsetForLeaderEpochRequest.shown hv x hx
  | .AddPartitionsToTxn, _, hv, _, x, hx => AddPartitionsToTxnRequest.shown hv x hx
  | .AddOffsetsToTxn, _, hv, _, x, hx => AddOffsetsToTxnRequest.shown hv x hx
  | .EndTxn, _, hv, _, x, hx => EndTxnRequest.shown hv x hx
  | .WriteTxnMarkers, _, hv, _, x, hx => WriteTxnMarkersRequest.shown hv x hx
  | .TxnOffsetCommit, _, hv, _, x, hx => TxnOffsetCommitRequest.shown hv x hx
  | .DescribeAcls, _, hv, _, x, hx => DescribeAclsRequest.shown hv x hx
  | .CreateAcls, _, hv, _, x, hx => CreateAclsRequest.shown hv x hx
  | .DeleteAcls, _, hv, _, x, hx => DeleteAclsRequest.shown hv x hx
  | .DescribeConfigs, _, hv, _, x, hx => DescribeConfigsRequest.shown hv x hx
  | .AlterConfigs, _, hv, _, x, hx => AlterConfigsRequest.shown hv x hx
  | .AlterReplicaLogDirs, _, hv, _, x, hx => AlterReplicaLogDirsRequest.shown hv x hx
  | .DescribeLogDirs, _, hv, _, x, hx => DescribeLogDirsRequest.shown hv x hx
  | .SaslAuthenticate, _, hv, _, x, hx => SaslAuthenticateRequest.shown hv x hx
  | .CreatePartitions, _, hv, _, x, hx => CreatePartitionsRequest.shown hv x hx
  | .CreateDelegationToken, _, hv, _, x, hx => CreateDelegationTokenRequest.shown hv x hx
  | .RenewDelegationToken, _, hv, _, x, hx => RenewDelegationTokenRequest.shown hv x hx
  | .ExpireDelegationToken, _, hv, _, x, hx => ExpireDelegationTokenRequest.shown hv x hx
  | .DescribeDelegationToken, _, hv, _, x, hx => DescribeDelegationTokenRequest.shown hv x hx
  | .DeleteGroups, _, hv, _, x, hx => DeleteGroupsRequest.shown hv x hx
  | .ElectLeaders, _, hv, _, x, hx => ElectLeadersRequest.shown hv x hx
  | .IncrementalAlterConfigs, _, hv, _, x, hx => IncrementalAlterConfigsRequest.shown hv x hx
  | .AlterPartitionReassignments, _, hv, _, x, hx => AlterPartitionReassignmentsRequest.shown hv x hx
  | .ListPartitionReassignments, _, hv, _, x, hx => ListPartitionReassignmentsRequest.shown hv x hx
  | .OffsetDelete, _, hv, _, x, hx => OffsetDeleteRequest.shown hv x hx

end Kafka
