import Verif.Gen.Kept.Produce
import Verif.Gen.Kept.Fetch
import Verif.Gen.Kept.ListOffset
import Verif.Gen.Kept.Metadata
import Verif.Gen.Kept.LeaderAndIsr
import Verif.Gen.Kept.StopReplica
import Verif.Gen.Kept.UpdateMetadata
import Verif.Gen.Kept.ControlledShutdown
import Verif.Gen.Kept.OffsetCommit
import Verif.Gen.Kept.OffsetFetch
import Verif.Gen.Kept.FindCoordinator
import Verif.Gen.Kept.JoinGroup
import Verif.Gen.Kept.Heartbeat
import Verif.Gen.Kept.LeaveGroup
import Verif.Gen.Kept.SyncGroup
import Verif.Gen.Kept.DescribeGroups
import Verif.Gen.Kept.ListGroups
import Verif.Gen.Kept.SaslHandshake
import Verif.Gen.Kept.ApiVersions
import Verif.Gen.Kept.CreateTopics
import Verif.Gen.Kept.DeleteTopics
import Verif.Gen.Kept.DeleteRecords
import Verif.Gen.Kept.InitProducerId
import Verif.Gen.Kept.OffsetForLeaderEpoch
import Verif.Gen.Kept.AddPartitionsToTxn
import Verif.Gen.Kept.AddOffsetsToTxn
import Verif.Gen.Kept.EndTxn
import Verif.Gen.Kept.WriteTxnMarkers
import Verif.Gen.Kept.TxnOffsetCommit
import Verif.Gen.Kept.DescribeAcls
import Verif.Gen.Kept.CreateAcls
import Verif.Gen.Kept.DeleteAcls
import Verif.Gen.Kept.DescribeConfigs
import Verif.Gen.Kept.AlterConfigs
import Verif.Gen.Kept.AlterReplicaLogDirs
import Verif.Gen.Kept.DescribeLogDirs
import Verif.Gen.Kept.SaslAuthenticate
import Verif.Gen.Kept.CreatePartitions
import Verif.Gen.Kept.CreateDelegationToken
import Verif.Gen.Kept.RenewDelegationToken
import Verif.Gen.Kept.ExpireDelegationToken
import Verif.Gen.Kept.DescribeDelegationToken
import Verif.Gen.Kept.DeleteGroups
import Verif.Gen.Kept.ElectLeaders
import Verif.Gen.Kept.IncrementalAlterConfigs
import Verif.Gen.Kept.AlterPartitionReassignments
import Verif.Gen.Kept.ListPartitionReassignments
import Verif.Gen.Kept.OffsetDelete
import Verif.Gen.Api
/-!
Generated by tools/gen_broker.py: the decoding of the responses with the receiver kept.
-/
namespace Kafka

open Msg

namespace Api

/-- `Decode` of the response type with its receiver kept. -/
def keeps : (a : Api) → KeptMsg a.resp
  | .Produce => ProduceResponse.keeps
  | .Fetch => FetchResponse.keeps
  | .ListOffset => ListOffsetResponse.keeps
  | .Metadata => MetadataResponse.keeps
  | .LeaderAndIsr => LeaderAndIsrResponse.keeps
  | .StopReplica => StopReplicaResponse.keeps
  | .UpdateMetadata => UpdateMetadataResponse.keeps
  | .ControlledShutdown => ControlledShutdownResponse.keeps
  | .OffsetCommit => OffsetCommitResponse.keeps
  | .OffsetFetch => OffsetFetchResponse.keeps
  | .FindCoordinator => FindCoordinatorResponse.keeps
  | .JoinGroup => JoinGroupResponse.keeps
  | .Heartbeat => HeartbeatResponse.keeps
  | .LeaveGroup => LeaveGroupResponse.keeps
  | .SyncGroup => SyncGroupResponse.keeps
  | .DescribeGroups => DescribeGroupsResponse.keeps
  | .ListGroups => ListGroupsResponse.keeps
  | .SaslHandshake => SaslHandshakeResponse.keeps
  | .ApiVersions => ApiVersionsResponse.keeps
  | .CreateTopics => CreateTopicsResponse.keeps
  | .DeleteTopics => DeleteTopicsResponse.keeps
  | .DeleteRecords => DeleteRecordsResponse.keeps
  | .InitProducerId => InitProducerIdResponse.keeps
  | .OffsetForLeaderEpoch => OffsetForLeaderEpochResponse.keeps
  | .AddPartitionsToTxn => AddPartitionsToTxnResponse.keeps
  | .AddOffsetsToTxn => AddOffsetsToTxnResponse.keeps
  | .EndTxn => EndTxnResponse.keeps
  | .WriteTxnMarkers => WriteTxnMarkersResponse.keeps
  | .TxnOffsetCommit => TxnOffsetCommitResponse.keeps
  | .DescribeAcls => DescribeAclsResponse.keeps
  | .CreateAcls => CreateAclsResponse.keeps
  | .DeleteAcls => DeleteAclsResponse.keeps
  | .DescribeConfigs => DescribeConfigsResponse.keeps
  | .AlterConfigs => AlterConfigsResponse.keeps
  | .AlterReplicaLogDirs => AlterReplicaLogDirsResponse.keeps
  | .DescribeLogDirs => DescribeLogDirsResponse.keeps
  | .SaslAuthenticate => SaslAuthenticateResponse.keeps
  | .CreatePartitions => CreatePartitionsResponse.keeps
  | .CreateDelegationToken => CreateDelegationTokenResponse.keeps
  | .RenewDelegationToken => RenewDelegationTokenResponse.keeps
  | .ExpireDelegationToken => ExpireDelegationTokenResponse.keeps
  | .DescribeDelegationToken => DescribeDelegationTokenResponse.keeps
  | .DeleteGroups => DeleteGroupsResponse.keeps
  | .ElectLeaders => ElectLeadersResponse.keeps
  | .IncrementalAlterConfigs => IncrementalAlterConfigsResponse.keeps
  | .AlterPartitionReassignments => AlterPartitionReassignmentsResponse.keeps
  | .ListPartitionReassignments => ListPartitionReassignmentsResponse.keeps
  | .OffsetDelete => OffsetDeleteResponse.keeps

theorem keeps_holds : (a : Api) → a.keeps.Holds a.respLayout
  | .Produce => ProduceResponse.keeps_holds
  | .Fetch => FetchResponse.keeps_holds
  | .ListOffset => ListOffsetResponse.keeps_holds
  | .Metadata => MetadataResponse.keeps_holds
  | .LeaderAndIsr => LeaderAndIsrResponse.keeps_holds
  | .StopReplica => StopReplicaResponse.keeps_holds
  | .UpdateMetadata => UpdateMetadataResponse.keeps_holds
  | .ControlledShutdown => ControlledShutdownResponse.keeps_holds
  | .OffsetCommit => OffsetCommitResponse.keeps_holds
  | .OffsetFetch => OffsetFetchResponse.keeps_holds
  | .FindCoordinator => FindCoordinatorResponse.keeps_holds
  | .JoinGroup => JoinGroupResponse.keeps_holds
  | .Heartbeat => HeartbeatResponse.keeps_holds
  | .LeaveGroup => LeaveGroupResponse.keeps_holds
  | .SyncGroup => SyncGroupResponse.keeps_holds
  | .DescribeGroups => DescribeGroupsResponse.keeps_holds
  | .ListGroups => ListGroupsResponse.keeps_holds
  | .SaslHandshake => SaslHandshakeResponse.keeps_holds
  | .ApiVersions => ApiVersionsResponse.keeps_holds
  | .CreateTopics => CreateTopicsResponse.keeps_holds
  | .DeleteTopics => DeleteTopicsResponse.keeps_holds
  | .DeleteRecords => DeleteRecordsResponse.keeps_holds
  | .InitProducerId => InitProducerIdResponse.keeps_holds
  | .OffsetForLeaderEpoch => OffsetForLeaderEpochResponse.keeps_holds
  | .AddPartitionsToTxn => AddPartitionsToTxnResponse.keeps_holds
  | .AddOffsetsToTxn => AddOffsetsToTxnResponse.keeps_holds
  | .EndTxn => EndTxnResponse.keeps_holds
  | .WriteTxnMarkers => WriteTxnMarkersResponse.keeps_holds
  | .TxnOffsetCommit => TxnOffsetCommitResponse.keeps_holds
  | .DescribeAcls => DescribeAclsResponse.keeps_holds
  | .CreateAcls => CreateAclsResponse.keeps_holds
  | .DeleteAcls => DeleteAclsResponse.keeps_holds
  | .DescribeConfigs => DescribeConfigsResponse.keeps_holds
  | .AlterConfigs => AlterConfigsResponse.keeps_holds
  | .AlterReplicaLogDirs => AlterReplicaLogDirsResponse.keeps_holds
  | .DescribeLogDirs => DescribeLogDirsResponse.keeps_holds
  | .SaslAuthenticate => SaslAuthenticateResponse.keeps_holds
  | .CreatePartitions => CreatePartitionsResponse.keeps_holds
  | .CreateDelegationToken => CreateDelegationTokenResponse.keeps_holds
  | .RenewDelegationToken => RenewDelegationTokenResponse.keeps_holds
  | .ExpireDelegationToken => ExpireDelegationTokenResponse.keeps_holds
  | .DescribeDelegationToken => DescribeDelegationTokenResponse.keeps_holds
  | .DeleteGroups => DeleteGroupsResponse.keeps_holds
  | .ElectLeaders => ElectLeadersResponse.keeps_holds
  | .IncrementalAlterConfigs => IncrementalAlterConfigsResponse.keeps_holds
  | .AlterPartitionReassignments => AlterPartitionReassignmentsResponse.keeps_holds
  | .ListPartitionReassignments => ListPartitionReassignmentsResponse.keeps_holds
  | .OffsetDelete => OffsetDeleteResponse.keeps_holds

end Api
end Kafka
