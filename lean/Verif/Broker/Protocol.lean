import Verif.Gen.Api
/-!
The api keys of the Kafka protocol (https://kafka.apache.org/protocol#protocol_api_keys),
written down independently of the client's tables.
-/
namespace Kafka

/-- The number the protocol assigns to an API. -/
def Api.protocolKey : Api → Nat
  | .Produce => 0 | .Fetch => 1 | .ListOffset => 2 | .Metadata => 3 | .LeaderAndIsr => 4
  | .StopReplica => 5 | .UpdateMetadata => 6 | .ControlledShutdown => 7 | .OffsetCommit => 8
  | .OffsetFetch => 9 | .FindCoordinator => 10 | .JoinGroup => 11 | .Heartbeat => 12
  | .LeaveGroup => 13 | .SyncGroup => 14 | .DescribeGroups => 15 | .ListGroups => 16
  | .SaslHandshake => 17 | .ApiVersions => 18 | .CreateTopics => 19 | .DeleteTopics => 20
  | .DeleteRecords => 21 | .InitProducerId => 22 | .OffsetForLeaderEpoch => 23
  | .AddPartitionsToTxn => 24 | .AddOffsetsToTxn => 25 | .EndTxn => 26 | .WriteTxnMarkers => 27
  | .TxnOffsetCommit => 28 | .DescribeAcls => 29 | .CreateAcls => 30 | .DeleteAcls => 31
  | .DescribeConfigs => 32 | .AlterConfigs => 33 | .AlterReplicaLogDirs => 34
  | .DescribeLogDirs => 35 | .SaslAuthenticate => 36 | .CreatePartitions => 37
  | .CreateDelegationToken => 38 | .RenewDelegationToken => 39 | .ExpireDelegationToken => 40
  | .DescribeDelegationToken => 41 | .DeleteGroups => 42 | .ElectLeaders => 43
  | .IncrementalAlterConfigs => 44 | .AlterPartitionReassignments => 45
  | .ListPartitionReassignments => 46 | .OffsetDelete => 47

/-- The highest version of each API in Kafka 2.4, the protocol this library was generated
from. -/
def Api.protocolMax : Api → Nat
  | .Produce => 8 | .Fetch => 11 | .ListOffset => 5 | .Metadata => 9 | .LeaderAndIsr => 4
  | .StopReplica => 2 | .UpdateMetadata => 6 | .ControlledShutdown => 3 | .OffsetCommit => 8
  | .OffsetFetch => 6 | .FindCoordinator => 3 | .JoinGroup => 6 | .Heartbeat => 4
  | .LeaveGroup => 4 | .SyncGroup => 4 | .DescribeGroups => 5 | .ListGroups => 3
  | .SaslHandshake => 1 | .ApiVersions => 3 | .CreateTopics => 5 | .DeleteTopics => 4
  | .DeleteRecords => 1 | .InitProducerId => 2 | .OffsetForLeaderEpoch => 3
  | .AddPartitionsToTxn => 1 | .AddOffsetsToTxn => 1 | .EndTxn => 1 | .WriteTxnMarkers => 0
  | .TxnOffsetCommit => 2 | .DescribeAcls => 1 | .CreateAcls => 1 | .DeleteAcls => 1
  | .DescribeConfigs => 2 | .AlterConfigs => 1 | .AlterReplicaLogDirs => 1
  | .DescribeLogDirs => 1 | .SaslAuthenticate => 1 | .CreatePartitions => 1
  | .CreateDelegationToken => 2 | .RenewDelegationToken => 1 | .ExpireDelegationToken => 1
  | .DescribeDelegationToken => 1 | .DeleteGroups => 2 | .ElectLeaders => 2
  | .IncrementalAlterConfigs => 1 | .AlterPartitionReassignments => 0
  | .ListPartitionReassignments => 0 | .OffsetDelete => 0

end Kafka
