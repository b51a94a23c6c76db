import Verif.Gen.Alloc.Produce
import Verif.Gen.Alloc.Fetch
import Verif.Gen.Alloc.ListOffset
import Verif.Gen.Alloc.Metadata
import Verif.Gen.Alloc.LeaderAndIsr
import Verif.Gen.Alloc.StopReplica
import Verif.Gen.Alloc.UpdateMetadata
import Verif.Gen.Alloc.ControlledShutdown
import Verif.Gen.Alloc.OffsetCommit
import Verif.Gen.Alloc.OffsetFetch
import Verif.Gen.Alloc.FindCoordinator
import Verif.Gen.Alloc.JoinGroup
import Verif.Gen.Alloc.Heartbeat
import Verif.Gen.Alloc.LeaveGroup
import Verif.Gen.Alloc.SyncGroup
import Verif.Gen.Alloc.DescribeGroups
import Verif.Gen.Alloc.ListGroups
import Verif.Gen.Alloc.SaslHandshake
import Verif.Gen.Alloc.ApiVersions
import Verif.Gen.Alloc.CreateTopics
import Verif.Gen.Alloc.DeleteTopics
import Verif.Gen.Alloc.DeleteRecords
import Verif.Gen.Alloc.InitProducerId
import Verif.Gen.Alloc.OffsetForLeaderEpoch
import Verif.Gen.Alloc.AddPartitionsToTxn
import Verif.Gen.Alloc.AddOffsetsToTxn
import Verif.Gen.Alloc.EndTxn
import Verif.Gen.Alloc.WriteTxnMarkers
import Verif.Gen.Alloc.TxnOffsetCommit
import Verif.Gen.Alloc.DescribeAcls
import Verif.Gen.Alloc.CreateAcls
import Verif.Gen.Alloc.DeleteAcls
import Verif.Gen.Alloc.DescribeConfigs
import Verif.Gen.Alloc.AlterConfigs
import Verif.Gen.Alloc.AlterReplicaLogDirs
import Verif.Gen.Alloc.DescribeLogDirs
import Verif.Gen.Alloc.SaslAuthenticate
import Verif.Gen.Alloc.CreatePartitions
import Verif.Gen.Alloc.CreateDelegationToken
import Verif.Gen.Alloc.RenewDelegationToken
import Verif.Gen.Alloc.ExpireDelegationToken
import Verif.Gen.Alloc.DescribeDelegationToken
import Verif.Gen.Alloc.DeleteGroups
import Verif.Gen.Alloc.ElectLeaders
import Verif.Gen.Alloc.IncrementalAlterConfigs
import Verif.Gen.Alloc.AlterPartitionReassignments
import Verif.Gen.Alloc.ListPartitionReassignments
import Verif.Gen.Alloc.OffsetDelete
import Verif.Gen.Api
/-!
Generated by tools/gen_broker.py: the decoding of the responses with the memory it asks for.
-/
namespace Kafka

open Msg

namespace Api

/-- `Decode` of the response type into a new value, with the memory it asks for. -/
def decodeA : (a : Api) → Int16 → ADec a.resp.T
  | .Produce, v => ProduceResponse.decodeA v {}
  | .Fetch, v => FetchResponse.decodeA v {}
  | .ListOffset, v => ListOffsetResponse.decodeA v {}
  | .Metadata, v => MetadataResponse.decodeA v {}
  | .LeaderAndIsr, v => LeaderAndIsrResponse.decodeA v {}
  | .StopReplica, v => StopReplicaResponse.decodeA v {}
  | .UpdateMetadata, v => UpdateMetadataResponse.decodeA v {}
  | .ControlledShutdown, v => ControlledShutdownResponse.decodeA v {}
  | .OffsetCommit, v => OffsetCommitResponse.decodeA v {}
  | .OffsetFetch, v => OffsetFetchResponse.decodeA v {}
  | .FindCoordinator, v => FindCoordinatorResponse.decodeA v {}
  | .JoinGroup, v => JoinGroupResponse.decodeA v {}
  | .Heartbeat, v => HeartbeatResponse.decodeA v {}
  | .LeaveGroup, v => LeaveGroupResponse.decodeA v {}
  | .SyncGroup, v => SyncGroupResponse.decodeA v {}
  | .DescribeGroups, v => DescribeGroupsResponse.decodeA v {}
  | .ListGroups, v => ListGroupsResponse.decodeA v {}
  | .SaslHandshake, v => SaslHandshakeResponse.decodeA v {}
  | .ApiVersions, v => ApiVersionsResponse.decodeA v {}
  | .CreateTopics, v => CreateTopicsResponse.decodeA v {}
  | .DeleteTopics, v => DeleteTopicsResponse.decodeA v {}
  | .DeleteRecords, v => DeleteRecordsResponse.decodeA v {}
  | .InitProducerId, v => InitProducerIdResponse.decodeA v {}
  | .OffsetForLeaderEpoch, v => OffsetForLeaderEpochResponse.decodeA v {}
  | .AddPartitionsToTxn, v => AddPartitionsToTxnResponse.decodeA v {}
  | .AddOffsetsToTxn, v => AddOffsetsToTxnResponse.decodeA v {}
  | .EndTxn, v => EndTxnResponse.decodeA v {}
  | .WriteTxnMarkers, v => WriteTxnMarkersResponse.decodeA v {}
  | .TxnOffsetCommit, v => TxnOffsetCommitResponse.decodeA v {}
  | .DescribeAcls, v => DescribeAclsResponse.decodeA v {}
  | .CreateAcls, v => CreateAclsResponse.decodeA v {}
  | .DeleteAcls, v => DeleteAclsResponse.decodeA v {}
  | .DescribeConfigs, v => DescribeConfigsResponse.decodeA v {}
  | .AlterConfigs, v => AlterConfigsResponse.decodeA v {}
  | .AlterReplicaLogDirs, v => AlterReplicaLogDirsResponse.decodeA v {}
  | .DescribeLogDirs, v => DescribeLogDirsResponse.decodeA v {}
  | .SaslAuthenticate, v => SaslAuthenticateResponse.decodeA v {}
  | .CreatePartitions, v => CreatePartitionsResponse.decodeA v {}
  | .CreateDelegationToken, v => CreateDelegationTokenResponse.decodeA v {}
  | .RenewDelegationToken, v => RenewDelegationTokenResponse.decodeA v {}
  | .ExpireDelegationToken, v => ExpireDelegationTokenResponse.decodeA v {}
  | .DescribeDelegationToken, v => DescribeDelegationTokenResponse.decodeA v {}
  | .DeleteGroups, v => DeleteGroupsResponse.decodeA v {}
  | .ElectLeaders, v => ElectLeadersResponse.decodeA v {}
  | .IncrementalAlterConfigs, v => IncrementalAlterConfigsResponse.decodeA v {}
  | .AlterPartitionReassignments, v => AlterPartitionReassignmentsResponse.decodeA v {}
  | .ListPartitionReassignments, v => ListPartitionReassignmentsResponse.decodeA v {}
  | .OffsetDelete, v => OffsetDeleteResponse.decodeA v {}

theorem decodeA_erases : (a : Api) → (v : Int16) → Erases (a.decodeA v) (a.resp.decode v a.resp.zero)
  | .Produce, v => ProduceResponse.erases v {}
  | .Fetch, v => FetchResponse.erases v {}
  | .ListOffset, v => ListOffsetResponse.erases v {}
  | .Metadata, v => MetadataResponse.erases v {}
  | .LeaderAndIsr, v => LeaderAndIsrResponse.erases v {}
  | .StopReplica, v => StopReplicaResponse.erases v {}
  | .UpdateMetadata, v => UpdateMetadataResponse.erases v {}
  | .ControlledShutdown, v => ControlledShutdownResponse.erases v {}
  | .OffsetCommit, v => OffsetCommitResponse.erases v {}
  | .OffsetFetch, v => OffsetFetchResponse.erases v {}
  | .FindCoordinator, v => FindCoordinatorResponse.erases v {}
  | .JoinGroup, v => JoinGroupResponse.erases v {}
  | .Heartbeat, v => HeartbeatResponse.erases v {}
  | .LeaveGroup, v => LeaveGroupResponse.erases v {}
  | .SyncGroup, v => SyncGroupResponse.erases v {}
  | .DescribeGroups, v => DescribeGroupsResponse.erases v {}
  | .ListGroups, v => ListGroupsResponse.erases v {}
  | .SaslHandshake, v => SaslHandshakeResponse.erases v {}
  | .ApiVersions, v => ApiVersionsResponse.erases v {}
  | .CreateTopics, v => CreateTopicsResponse.erases v {}
  | .DeleteTopics, v => DeleteTopicsResponse.erases v {}
  | .DeleteRecords, v => DeleteRecordsResponse.erases v {}
  | .InitProducerId, v => InitProducerIdResponse.erases v {}
  | .OffsetForLeaderEpoch, v => OffsetForLeaderEpochResponse.erases v {}
  | .AddPartitionsToTxn, v => AddPartitionsToTxnResponse.erases v {}
  | .AddOffsetsToTxn, v => AddOffsetsToTxnResponse.erases v {}
  | .EndTxn, v => EndTxnResponse.erases v {}
  | .WriteTxnMarkers, v => WriteTxnMarkersResponse.erases v {}
  | .TxnOffsetCommit, v => TxnOffsetCommitResponse.erases v {}
  | .DescribeAcls, v => DescribeAclsResponse.erases v {}
  | .CreateAcls, v => CreateAclsResponse.erases v {}
  | .DeleteAcls, v => DeleteAclsResponse.erases v {}
  | .DescribeConfigs, v => DescribeConfigsResponse.erases v {}
  | .AlterConfigs, v => AlterConfigsResponse.erases v {}
  | .AlterReplicaLogDirs, v => AlterReplicaLogDirsResponse.erases v {}
  | .DescribeLogDirs, v => DescribeLogDirsResponse.erases v {}
  | .SaslAuthenticate, v => SaslAuthenticateResponse.erases v {}
  | .CreatePartitions, v => CreatePartitionsResponse.erases v {}
  | .CreateDelegationToken, v => CreateDelegationTokenResponse.erases v {}
  | .RenewDelegationToken, v => RenewDelegationTokenResponse.erases v {}
  | .ExpireDelegationToken, v => ExpireDelegationTokenResponse.erases v {}
  | .DescribeDelegationToken, v => DescribeDelegationTokenResponse.erases v {}
  | .DeleteGroups, v => DeleteGroupsResponse.erases v {}
  | .ElectLeaders, v => ElectLeadersResponse.erases v {}
  | .IncrementalAlterConfigs, v => IncrementalAlterConfigsResponse.erases v {}
  | .AlterPartitionReassignments, v => AlterPartitionReassignmentsResponse.erases v {}
  | .ListPartitionReassignments, v => ListPartitionReassignmentsResponse.erases v {}
  | .OffsetDelete, v => OffsetDeleteResponse.erases v {}

/-- How deep arrays are nested in the response. -/
def depth : Api → Nat
  | .Produce => 3
  | .Fetch => 3
  | .ListOffset => 3
  | .Metadata => 3
  | .LeaderAndIsr => 1
  | .StopReplica => 1
  | .UpdateMetadata => 0
  | .ControlledShutdown => 1
  | .OffsetCommit => 2
  | .OffsetFetch => 2
  | .FindCoordinator => 0
  | .JoinGroup => 1
  | .Heartbeat => 0
  | .LeaveGroup => 1
  | .SyncGroup => 0
  | .DescribeGroups => 2
  | .ListGroups => 1
  | .SaslHandshake => 1
  | .ApiVersions => 1
  | .CreateTopics => 2
  | .DeleteTopics => 1
  | .DeleteRecords => 2
  | .InitProducerId => 0
  | .OffsetForLeaderEpoch => 2
  | .AddPartitionsToTxn => 2
  | .AddOffsetsToTxn => 0
  | .EndTxn => 0
  | .WriteTxnMarkers => 3
  | .TxnOffsetCommit => 2
  | .DescribeAcls => 2
  | .CreateAcls => 1
  | .DeleteAcls => 2
  | .DescribeConfigs => 3
  | .AlterConfigs => 1
  | .AlterReplicaLogDirs => 2
  | .DescribeLogDirs => 3
  | .SaslAuthenticate => 0
  | .CreatePartitions => 1
  | .CreateDelegationToken => 0
  | .RenewDelegationToken => 0
  | .ExpireDelegationToken => 0
  | .DescribeDelegationToken => 2
  | .DeleteGroups => 1
  | .ElectLeaders => 2
  | .IncrementalAlterConfigs => 1
  | .AlterPartitionReassignments => 2
  | .ListPartitionReassignments => 3
  | .OffsetDelete => 2

theorem decodeA_within : (a : Api) → (v : Int16) → Within (a.decodeA v) 0 a.depth
  | .Produce, v => (ProduceResponse.within v {}).mono (Nat.zero_le _) (Nat.le_refl _)
  | .Fetch, v => (FetchResponse.within v {}).mono (Nat.zero_le _) (Nat.le_refl _)
  | .ListOffset, v => (ListOffsetResponse.within v {}).mono (Nat.zero_le _) (Nat.le_refl _)
  | .Metadata, v => (MetadataResponse.within v {}).mono (Nat.zero_le _) (Nat.le_refl _)
  | .LeaderAndIsr, v => (LeaderAndIsrResponse.within v {}).mono (Nat.zero_le _) (Nat.le_refl _)
  | .StopReplica, v => (StopReplicaResponse.within v {}).mono (Nat.zero_le _) (Nat.le_refl _)
  | .UpdateMetadata, v => (UpdateMetadataResponse.within v {}).mono (Nat.zero_le _) (Nat.le_refl _)
  | .ControlledShutdown, v => (ControlledShutdownResponse.within v {}).mono (Nat.zero_le _) (Nat.le_refl _)
  | .OffsetCommit, v => (OffsetCommitResponse.within v {}).mono (Nat.zero_le _) (Nat.le_refl _)
  | .OffsetFetch, v => (OffsetFetchResponse.within v {}).mono (Nat.zero_le _) (Nat.le_refl _)
  | .FindCoordinator, v => (FindCoordinatorResponse.within v {}).mono (Nat.zero_le _) (Nat.le_refl _)
  | .JoinGroup, v => (JoinGroupResponse.within v {}).mono (Nat.zero_le _) (Nat.le_refl _)
  | .Heartbeat, v => (HeartbeatResponse.within v {}).mono (Nat.zero_le _) (Nat.le_refl _)
  | .LeaveGroup, v => (LeaveGroupResponse.within v {}).mono (Nat.zero_le _) (Nat.le_refl _)
  | .SyncGroup, v => (SyncGroupResponse.within v {}).mono (Nat.zero_le _) (Nat.le_refl _)
  | .DescribeGroups, v => (DescribeGroupsResponse.within v {}).mono (Nat.zero_le _) (Nat.le_refl _)
  | .ListGroups, v => (ListGroupsResponse.within v {}).mono (Nat.zero_le _) (Nat.le_refl _)
  | .SaslHandshake, v => (SaslHandshakeResponse.within v {}).mono (Nat.zero_le _) (Nat.le_refl _)
  | .ApiVersions, v => (ApiVersionsResponse.within v {}).mono (Nat.zero_le _) (Nat.le_refl _)
  | .CreateTopics, v => (CreateTopicsResponse.within v {}).mono (Nat.zero_le _) (Nat.le_refl _)
  | .DeleteTopics, v => (DeleteTopicsResponse.within v {}).mono (Nat.zero_le _) (Nat.le_refl _)
  | .DeleteRecords, v => (DeleteRecordsResponse.within v {}).mono (Nat.zero_le _) (Nat.le_refl _)
  | .InitProducerId, v => (InitProducerIdResponse.within v {}).mono (Nat.zero_le _) (Nat.le_refl _)
  | .OffsetForLeaderEpoch, v => (OffsetForLeaderEpochResponse.within v {}).mono (Nat.zero_le _) (Nat.le_refl _)
  | .AddPartitionsToTxn, v => (AddPartitionsToTxnResponse.within v {}).mono (Nat.zero_le _) (Nat.le_refl _)
  | .AddOffsetsToTxn, v => (AddOffsetsToTxnResponse.within v {}).mono (Nat.zero_le _) (Nat.le_refl _)
  | .EndTxn, v => (EndTxnResponse.within v {}).mono (Nat.zero_le _) (Nat.le_refl _)
  | .WriteTxnMarkers, v => (WriteTxnMarkersResponse.within v {}).mono (Nat.zero_le _) (Nat.le_refl _)
  | .TxnOffsetCommit, v => (TxnOffsetCommitResponse.within v {}).mono (Nat.zero_le _) (Nat.le_refl _)
  | .DescribeAcls, v => (DescribeAclsResponse.within v {}).mono (Nat.zero_le _) (Nat.le_refl _)
  | .CreateAcls, v => (CreateAclsResponse.within v {}).mono (Nat.zero_le _) (Nat.le_refl _)
  | .DeleteAcls, v => (DeleteAclsResponse.within v {}).mono (Nat.zero_le _) (Nat.le_refl _)
  | .DescribeConfigs, v => (DescribeConfigsResponse.within v {}).mono (Nat.zero_le _) (Nat.le_refl _)
  | .AlterConfigs, v => (AlterConfigsResponse.within v {}).mono (Nat.zero_le _) (Nat.le_refl _)
  | .AlterReplicaLogDirs, v => (AlterReplicaLogDirsResponse.within v {}).mono (Nat.zero_le _) (Nat.le_refl _)
  | .DescribeLogDirs, v => (DescribeLogDirsResponse.within v {}).mono (Nat.zero_le _) (Nat.le_refl _)
  | .SaslAuthenticate, v => (SaslAuthenticateResponse.within v {}).mono (Nat.zero_le _) (Nat.le_refl _)
  | .CreatePartitions, v => (CreatePartitionsResponse.within v {}).mono (Nat.zero_le _) (Nat.le_refl _)
  | .CreateDelegationToken, v => (CreateDelegationTokenResponse.within v {}).mono (Nat.zero_le _) (Nat.le_refl _)
  | .RenewDelegationToken, v => (RenewDelegationTokenResponse.within v {}).mono (Nat.zero_le _) (Nat.le_refl _)
  | .ExpireDelegationToken, v => (ExpireDelegationTokenResponse.within v {}).mono (Nat.zero_le _) (Nat.le_refl _)
  | .DescribeDelegationToken, v => (DescribeDelegationTokenResponse.within v {}).mono (Nat.zero_le _) (Nat.le_refl _)
  | .DeleteGroups, v => (DeleteGroupsResponse.within v {}).mono (Nat.zero_le _) (Nat.le_refl _)
  | .ElectLeaders, v => (ElectLeadersResponse.within v {}).mono (Nat.zero_le _) (Nat.le_refl _)
  | .IncrementalAlterConfigs, v => (IncrementalAlterConfigsResponse.within v {}).mono (Nat.zero_le _) (Nat.le_refl _)
  | .AlterPartitionReassignments, v => (AlterPartitionReassignmentsResponse.within v {}).mono (Nat.zero_le _) (Nat.le_refl _)
  | .ListPartitionReassignments, v => (ListPartitionReassignmentsResponse.within v {}).mono (Nat.zero_le _) (Nat.le_refl _)
  | .OffsetDelete, v => (OffsetDeleteResponse.within v {}).mono (Nat.zero_le _) (Nat.le_refl _)

end Api
end Kafka
