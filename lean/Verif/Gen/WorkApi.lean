import Verif.Gen.Work.Produce
import Verif.Gen.Work.Fetch
import Verif.Gen.Work.ListOffset
import Verif.Gen.Work.Metadata
import Verif.Gen.Work.LeaderAndIsr
import Verif.Gen.Work.StopReplica
import Verif.Gen.Work.UpdateMetadata
import Verif.Gen.Work.ControlledShutdown
import Verif.Gen.Work.OffsetCommit
import Verif.Gen.Work.OffsetFetch
import Verif.Gen.Work.FindCoordinator
import Verif.Gen.Work.JoinGroup
import Verif.Gen.Work.Heartbeat
import Verif.Gen.Work.LeaveGroup
import Verif.Gen.Work.SyncGroup
import Verif.Gen.Work.DescribeGroups
import Verif.Gen.Work.ListGroups
import Verif.Gen.Work.SaslHandshake
import Verif.Gen.Work.ApiVersions
import Verif.Gen.Work.CreateTopics
import Verif.Gen.Work.DeleteTopics
import Verif.Gen.Work.DeleteRecords
import Verif.Gen.Work.InitProducerId
import Verif.Gen.Work.OffsetForLeaderEpoch
import Verif.Gen.Work.AddPartitionsToTxn
import Verif.Gen.Work.AddOffsetsToTxn
import Verif.Gen.Work.EndTxn
import Verif.Gen.Work.WriteTxnMarkers
import Verif.Gen.Work.TxnOffsetCommit
import Verif.Gen.Work.DescribeAcls
import Verif.Gen.Work.CreateAcls
import Verif.Gen.Work.DeleteAcls
import Verif.Gen.Work.DescribeConfigs
import Verif.Gen.Work.AlterConfigs
import Verif.Gen.Work.AlterReplicaLogDirs
import Verif.Gen.Work.DescribeLogDirs
import Verif.Gen.Work.SaslAuthenticate
import Verif.Gen.Work.CreatePartitions
import Verif.Gen.Work.CreateDelegationToken
import Verif.Gen.Work.RenewDelegationToken
import Verif.Gen.Work.ExpireDelegationToken
import Verif.Gen.Work.DescribeDelegationToken
import Verif.Gen.Work.DeleteGroups
import Verif.Gen.Work.ElectLeaders
import Verif.Gen.Work.IncrementalAlterConfigs
import Verif.Gen.Work.AlterPartitionReassignments
import Verif.Gen.Work.ListPartitionReassignments
import Verif.Gen.Work.OffsetDelete
import Verif.Gen.Api
/-!
Generated by tools/gen_broker.py: the decoding of the responses with the steps it takes.
-/
namespace Kafka

open Msg

namespace Api

/-- `Decode` of the response type into a new value, with the steps it takes. -/
def decodeW : (a : Api) → Int16 → ADec a.resp.T
  | .Produce, v => ProduceResponse.decodeW v {}
  | .Fetch, v => FetchResponse.decodeW v {}
  | .ListOffset, v => ListOffsetResponse.decodeW v {}
  | .Metadata, v => MetadataResponse.decodeW v {}
  | .LeaderAndIsr, v => LeaderAndIsrResponse.decodeW v {}
  | .StopReplica, v => StopReplicaResponse.decodeW v {}
  | .UpdateMetadata, v => UpdateMetadataResponse.decodeW v {}
  | .ControlledShutdown, v => ControlledShutdownResponse.decodeW v {}
  | .OffsetCommit, v => OffsetCommitResponse.decodeW v {}
  | .OffsetFetch, v => OffsetFetchResponse.decodeW v {}
  | .FindCoordinator, v => FindCoordinatorResponse.decodeW v {}
  | .JoinGroup, v => JoinGroupResponse.decodeW v {}
  | .Heartbeat, v => HeartbeatResponse.decodeW v {}
  | .LeaveGroup, v => LeaveGroupResponse.decodeW v {}
  | .SyncGroup, v => SyncGroupResponse.decodeW v {}
  | .DescribeGroups, v => DescribeGroupsResponse.decodeW v {}
  | .ListGroups, v => ListGroupsResponse.decodeW v {}
  | .SaslHandshake, v => SaslHandshakeResponse.decodeW v {}
  | .ApiVersions, v => ApiVersionsResponse.decodeW v {}
  | .CreateTopics, v => CreateTopicsResponse.decodeW v {}
  | .DeleteTopics, v => DeleteTopicsResponse.decodeW v {}
  | .DeleteRecords, v => DeleteRecordsResponse.decodeW v {}
  | .InitProducerId, v => InitProducerIdResponse.decodeW v {}
  | .OffsetForLeaderEpoch, v => OffsetForLeaderEpochResponse.decodeW v {}
  | .AddPartitionsToTxn, v => AddPartitionsToTxnResponse.decodeW v {}
  | .AddOffsetsToTxn, v => AddOffsetsToTxnResponse.decodeW v {}
  | .EndTxn, v => EndTxnResponse.decodeW v {}
  | .WriteTxnMarkers, v => WriteTxnMarkersResponse.decodeW v {}
  | .TxnOffsetCommit, v => TxnOffsetCommitResponse.decodeW v {}
  | .DescribeAcls, v => DescribeAclsResponse.decodeW v {}
  | .CreateAcls, v => CreateAclsResponse.decodeW v {}
  | .DeleteAcls, v => DeleteAclsResponse.decodeW v {}
  | .DescribeConfigs, v => DescribeConfigsResponse.decodeW v {}
  | .AlterConfigs, v => AlterConfigsResponse.decodeW v {}
  | .AlterReplicaLogDirs, v => AlterReplicaLogDirsResponse.decodeW v {}
  | .DescribeLogDirs, v => DescribeLogDirsResponse.decodeW v {}
  | .SaslAuthenticate, v => SaslAuthenticateResponse.decodeW v {}
  | .CreatePartitions, v => CreatePartitionsResponse.decodeW v {}
  | .CreateDelegationToken, v => CreateDelegationTokenResponse.decodeW v {}
  | .RenewDelegationToken, v => RenewDelegationTokenResponse.decodeW v {}
  | .ExpireDelegationToken, v => ExpireDelegationTokenResponse.decodeW v {}
  | .DescribeDelegationToken, v => DescribeDelegationTokenResponse.decodeW v {}
  | .DeleteGroups, v => DeleteGroupsResponse.decodeW v {}
  | .ElectLeaders, v => ElectLeadersResponse.decodeW v {}
  | .IncrementalAlterConfigs, v => IncrementalAlterConfigsResponse.decodeW v {}
  | .AlterPartitionReassignments, v => AlterPartitionReassignmentsResponse.decodeW v {}
  | .ListPartitionReassignments, v => ListPartitionReassignmentsResponse.decodeW v {}
  | .OffsetDelete, v => OffsetDeleteResponse.decodeW v {}

theorem decodeW_erases : (a : Api) → (v : Int16) → Erases (a.decodeW v) (a.resp.decode v a.resp.zero)
  | .Produce, v => ProduceResponse.erasesW v {}
  | .Fetch, v => FetchResponse.erasesW v {}
  | .ListOffset, v => ListOffsetResponse.erasesW v {}
  | .Metadata, v => MetadataResponse.erasesW v {}
  | .LeaderAndIsr, v => LeaderAndIsrResponse.erasesW v {}
  | .StopReplica, v => StopReplicaResponse.erasesW v {}
  | .UpdateMetadata, v => UpdateMetadataResponse.erasesW v {}
  | .ControlledShutdown, v => ControlledShutdownResponse.erasesW v {}
  | .OffsetCommit, v => OffsetCommitResponse.erasesW v {}
  | .OffsetFetch, v => OffsetFetchResponse.erasesW v {}
  | .FindCoordinator, v => FindCoordinatorResponse.erasesW v {}
  | .JoinGroup, v => JoinGroupResponse.erasesW v {}
  | .Heartbeat, v => HeartbeatResponse.erasesW v {}
  | .LeaveGroup, v => LeaveGroupResponse.erasesW v {}
  | .SyncGroup, v => SyncGroupResponse.erasesW v {}
  | .DescribeGroups, v => DescribeGroupsResponse.erasesW v {}
  | .ListGroups, v => ListGroupsResponse.erasesW v {}
  | .SaslHandshake, v => SaslHandshakeResponse.erasesW v {}
  | .ApiVersions, v => ApiVersionsResponse.erasesW v {}
  | .CreateTopics, v => CreateTopicsResponse.erasesW v {}
  | .DeleteTopics, v => DeleteTopicsResponse.erasesW v {}
  | .DeleteRecords, v => DeleteRecordsResponse.erasesW v {}
  | .InitProducerId, v => InitProducerIdResponse.erasesW v {}
  | .OffsetForLeaderEpoch, v => OffsetForLeaderEpochResponse.erasesW v {}
  | .AddPartitionsToTxn, v => AddPartitionsToTxnResponse.erasesW v {}
  | .AddOffsetsToTxn, v => AddOffsetsToTxnResponse.erasesW v {}
  | .EndTxn, v => EndTxnResponse.erasesW v {}
  | .WriteTxnMarkers, v => WriteTxnMarkersResponse.erasesW v {}
  | .TxnOffsetCommit, v => TxnOffsetCommitResponse.erasesW v {}
  | .DescribeAcls, v => DescribeAclsResponse.erasesW v {}
  | .CreateAcls, v => CreateAclsResponse.erasesW v {}
  | .DeleteAcls, v => DeleteAclsResponse.erasesW v {}
  | .DescribeConfigs, v => DescribeConfigsResponse.erasesW v {}
  | .AlterConfigs, v => AlterConfigsResponse.erasesW v {}
  | .AlterReplicaLogDirs, v => AlterReplicaLogDirsResponse.erasesW v {}
  | .DescribeLogDirs, v => DescribeLogDirsResponse.erasesW v {}
  | .SaslAuthenticate, v => SaslAuthenticateResponse.erasesW v {}
  | .CreatePartitions, v => CreatePartitionsResponse.erasesW v {}
  | .CreateDelegationToken, v => CreateDelegationTokenResponse.erasesW v {}
  | .RenewDelegationToken, v => RenewDelegationTokenResponse.erasesW v {}
  | .ExpireDelegationToken, v => ExpireDelegationTokenResponse.erasesW v {}
  | .DescribeDelegationToken, v => DescribeDelegationTokenResponse.erasesW v {}
  | .DeleteGroups, v => DeleteGroupsResponse.erasesW v {}
  | .ElectLeaders, v => ElectLeadersResponse.erasesW v {}
  | .IncrementalAlterConfigs, v => IncrementalAlterConfigsResponse.erasesW v {}
  | .AlterPartitionReassignments, v => AlterPartitionReassignmentsResponse.erasesW v {}
  | .ListPartitionReassignments, v => ListPartitionReassignmentsResponse.erasesW v {}
  | .OffsetDelete, v => OffsetDeleteResponse.erasesW v {}

theorem decodeW_spends : (a : Api) → (v : Int16) → Spends (a.decodeW v) 0 1
  | .Produce, v => ProduceResponse.spends0 v {}
  | .Fetch, v => FetchResponse.spends0 v {}
  | .ListOffset, v => ListOffsetResponse.spends0 v {}
  | .Metadata, v => MetadataResponse.spends0 v {}
  | .LeaderAndIsr, v => LeaderAndIsrResponse.spends0 v {}
  | .StopReplica, v => StopReplicaResponse.spends0 v {}
  | .UpdateMetadata, v => UpdateMetadataResponse.spends0 v {}
  | .ControlledShutdown, v => ControlledShutdownResponse.spends0 v {}
  | .OffsetCommit, v => OffsetCommitResponse.spends0 v {}
  | .OffsetFetch, v => OffsetFetchResponse.spends0 v {}
  | .FindCoordinator, v => FindCoordinatorResponse.spends0 v {}
  | .JoinGroup, v => JoinGroupResponse.spends0 v {}
  | .Heartbeat, v => HeartbeatResponse.spends0 v {}
  | .LeaveGroup, v => LeaveGroupResponse.spends0 v {}
  | .SyncGroup, v => SyncGroupResponse.spends0 v {}
  | .DescribeGroups, v => DescribeGroupsResponse.spends0 v {}
  | .ListGroups, v => ListGroupsResponse.spends0 v {}
  | .SaslHandshake, v => SaslHandshakeResponse.spends0 v {}
  | .ApiVersions, v => ApiVersionsResponse.spends0 v {}
  | .CreateTopics, v => CreateTopicsResponse.spends0 v {}
  | .DeleteTopics, v => DeleteTopicsResponse.spends0 v {}
  | .DeleteRecords, v => DeleteRecordsResponse.spends0 v {}
  | .InitProducerId, v => InitProducerIdResponse.spends0 v {}
  | .OffsetForLeaderEpoch, v => OffsetForLeaderEpochResponse.spends0 v {}
  | .AddPartitionsToTxn, v => AddPartitionsToTxnResponse.spends0 v {}
  | .AddOffsetsToTxn, v => AddOffsetsToTxnResponse.spends0 v {}
  | .EndTxn, v => EndTxnResponse.spends0 v {}
  | .WriteTxnMarkers, v => WriteTxnMarkersResponse.spends0 v {}
  | .TxnOffsetCommit, v => TxnOffsetCommitResponse.spends0 v {}
  | .DescribeAcls, v => DescribeAclsResponse.spends0 v {}
  | .CreateAcls, v => CreateAclsResponse.spends0 v {}
  | .DeleteAcls, v => DeleteAclsResponse.spends0 v {}
  | .DescribeConfigs, v => DescribeConfigsResponse.spends0 v {}
  | .AlterConfigs, v => AlterConfigsResponse.spends0 v {}
  | .AlterReplicaLogDirs, v => AlterReplicaLogDirsResponse.spends0 v {}
  | .DescribeLogDirs, v => DescribeLogDirsResponse.spends0 v {}
  | .SaslAuthenticate, v => SaslAuthenticateResponse.spends0 v {}
  | .CreatePartitions, v => CreatePartitionsResponse.spends0 v {}
  | .CreateDelegationToken, v => CreateDelegationTokenResponse.spends0 v {}
  | .RenewDelegationToken, v => RenewDelegationTokenResponse.spends0 v {}
  | .ExpireDelegationToken, v => ExpireDelegationTokenResponse.spends0 v {}
  | .DescribeDelegationToken, v => DescribeDelegationTokenResponse.spends0 v {}
  | .DeleteGroups, v => DeleteGroupsResponse.spends0 v {}
  | .ElectLeaders, v => ElectLeadersResponse.spends0 v {}
  | .IncrementalAlterConfigs, v => IncrementalAlterConfigsResponse.spends0 v {}
  | .AlterPartitionReassignments, v => AlterPartitionReassignmentsResponse.spends0 v {}
  | .ListPartitionReassignments, v => ListPartitionReassignmentsResponse.spends0 v {}
  | .OffsetDelete, v => OffsetDeleteResponse.spends0 v {}

end Api
end Kafka
