import Verif.Protocol.Messages
import Verif.Broker.Protocol
/-!
The requests and replies of the Kafka protocol, version 2.4: which messages belong to an API, from which
version on they are flexible, which headers they have, how they are framed.  Written down independently of
the client's code (`Api` is only the list of names).
-/
namespace Kafka.Protocol

/-- The request of an API. -/
def request : Api → Fields
  | .Produce => ProduceRequest | .Fetch => FetchRequest | .ListOffset => ListOffsetRequest
  | .Metadata => MetadataRequest | .LeaderAndIsr => LeaderAndIsrRequest | .StopReplica => StopReplicaRequest
  | .UpdateMetadata => UpdateMetadataRequest | .ControlledShutdown => ControlledShutdownRequest
  | .OffsetCommit => OffsetCommitRequest | .OffsetFetch => OffsetFetchRequest
  | .FindCoordinator => FindCoordinatorRequest | .JoinGroup => JoinGroupRequest
  | .Heartbeat => HeartbeatRequest | .LeaveGroup => LeaveGroupRequest | .SyncGroup => SyncGroupRequest
  | .DescribeGroups => DescribeGroupsRequest | .ListGroups => ListGroupsRequest
  | .SaslHandshake => SaslHandshakeRequest | .ApiVersions => ApiVersionsRequest
  | .CreateTopics => CreateTopicsRequest | .DeleteTopics => DeleteTopicsRequest
  | .DeleteRecords => DeleteRecordsRequest | .InitProducerId => InitProducerIdRequest
  | .OffsetForLeaderEpoch => OffsetForLeaderEpochRequest | .AddPartitionsToTxn => AddPartitionsToTxnRequest
  | .AddOffsetsToTxn => AddOffsetsToTxnRequest | .EndTxn => EndTxnRequest
  | .WriteTxnMarkers => WriteTxnMarkersRequest | .TxnOffsetCommit => TxnOffsetCommitRequest
  | .DescribeAcls => DescribeAclsRequest | .CreateAcls => CreateAclsRequest | .DeleteAcls => DeleteAclsRequest
  | .DescribeConfigs => DescribeConfigsRequest | .AlterConfigs => AlterConfigsRequest
  | .AlterReplicaLogDirs => AlterReplicaLogDirsRequest | .DescribeLogDirs => DescribeLogDirsRequest
  | .SaslAuthenticate => SaslAuthenticateRequest | .CreatePartitions => CreatePartitionsRequest
  | .CreateDelegationToken => CreateDelegationTokenRequest | .RenewDelegationToken => RenewDelegationTokenRequest
  | .ExpireDelegationToken => ExpireDelegationTokenRequest
  | .DescribeDelegationToken => DescribeDelegationTokenRequest | .DeleteGroups => DeleteGroupsRequest
  | .ElectLeaders => ElectLeadersRequest | .IncrementalAlterConfigs => IncrementalAlterConfigsRequest
  | .AlterPartitionReassignments => AlterPartitionReassignmentsRequest
  | .ListPartitionReassignments => ListPartitionReassignmentsRequest | .OffsetDelete => OffsetDeleteRequest

/-- The response of an API. -/
def response : Api → Fields
  | .Produce => ProduceResponse | .Fetch => FetchResponse | .ListOffset => ListOffsetResponse
  | .Metadata => MetadataResponse | .LeaderAndIsr => LeaderAndIsrResponse | .StopReplica => StopReplicaResponse
  | .UpdateMetadata => UpdateMetadataResponse | .ControlledShutdown => ControlledShutdownResponse
  | .OffsetCommit => OffsetCommitResponse | .OffsetFetch => OffsetFetchResponse
  | .FindCoordinator => FindCoordinatorResponse | .JoinGroup => JoinGroupResponse
  | .Heartbeat => HeartbeatResponse | .LeaveGroup => LeaveGroupResponse | .SyncGroup => SyncGroupResponse
  | .DescribeGroups => DescribeGroupsResponse | .ListGroups => ListGroupsResponse
  | .SaslHandshake => SaslHandshakeResponse | .ApiVersions => ApiVersionsResponse
  | .CreateTopics => CreateTopicsResponse | .DeleteTopics => DeleteTopicsResponse
  | .DeleteRecords => DeleteRecordsResponse | .InitProducerId => InitProducerIdResponse
  | .OffsetForLeaderEpoch => OffsetForLeaderEpochResponse | .AddPartitionsToTxn => AddPartitionsToTxnResponse
  | .AddOffsetsToTxn => AddOffsetsToTxnResponse | .EndTxn => EndTxnResponse
  | .WriteTxnMarkers => WriteTxnMarkersResponse | .TxnOffsetCommit => TxnOffsetCommitResponse
  | .DescribeAcls => DescribeAclsResponse | .CreateAcls => CreateAclsResponse | .DeleteAcls => DeleteAclsResponse
  | .DescribeConfigs => DescribeConfigsResponse | .AlterConfigs => AlterConfigsResponse
  | .AlterReplicaLogDirs => AlterReplicaLogDirsResponse | .DescribeLogDirs => DescribeLogDirsResponse
  | .SaslAuthenticate => SaslAuthenticateResponse | .CreatePartitions => CreatePartitionsResponse
  | .CreateDelegationToken => CreateDelegationTokenResponse
  | .RenewDelegationToken => RenewDelegationTokenResponse
  | .ExpireDelegationToken => ExpireDelegationTokenResponse
  | .DescribeDelegationToken => DescribeDelegationTokenResponse | .DeleteGroups => DeleteGroupsResponse
  | .ElectLeaders => ElectLeadersResponse | .IncrementalAlterConfigs => IncrementalAlterConfigsResponse
  | .AlterPartitionReassignments => AlterPartitionReassignmentsResponse
  | .ListPartitionReassignments => ListPartitionReassignmentsResponse | .OffsetDelete => OffsetDeleteResponse

/-- The first flexible version of an API. -/
def flexibleFrom : Api → Option Nat
  | .Metadata => some 9 | .LeaderAndIsr => some 4 | .StopReplica => some 2 | .UpdateMetadata => some 6
  | .ControlledShutdown => some 3 | .OffsetCommit => some 8 | .OffsetFetch => some 6
  | .FindCoordinator => some 3 | .JoinGroup => some 6 | .Heartbeat => some 4 | .LeaveGroup => some 4
  | .SyncGroup => some 4 | .DescribeGroups => some 5 | .ListGroups => some 3 | .ApiVersions => some 3
  | .CreateTopics => some 5 | .DeleteTopics => some 4 | .InitProducerId => some 2
  | .CreateDelegationToken => some 2 | .DeleteGroups => some 2 | .ElectLeaders => some 2
  | .IncrementalAlterConfigs => some 1 | .AlterPartitionReassignments => some 0
  | .ListPartitionReassignments => some 0
  | _ => none

/-- The version is a flexible one. -/
def flexible (a : Api) (v : Int16) : Bool := (flexibleFrom a).any fun (f : Nat) => (f : Int) ≤ v.toInt

/-- The version of the request header: flexible versions have version 2, ControlledShutdown version 0 the
header without client id, all others version 1. -/
def requestHeaderVersion (a : Api) (v : Int16) : Int16 :=
  if flexible a v then 2 else if a = .ControlledShutdown ∧ v = 0 then 0 else 1

/-- The version of the response header; that of ApiVersions is always 0. -/
def responseHeaderVersion (a : Api) (v : Int16) : Int16 :=
  if flexible a v ∧ a ≠ .ApiVersions then 1 else 0

/-- The number of tagged fields of a flexible header. -/
def tags (flex : Bool) : List Byte := if flex then [0] else []

/-- A request with its header. -/
def requestPayload (a : Api) (v : Int16) (correlationId : Int32) (clientId : GoString) (x : Val) : List Byte :=
  RequestHeader.wire false (requestHeaderVersion a v)
      (.struct [("RequestApiKey", .int16 (Int16.ofNat a.protocolKey)), ("RequestApiVersion", .int16 v),
        ("CorrelationId", .int32 correlationId), ("ClientId", .str (some clientId))]) ++
    tags (requestHeaderVersion a v = 2) ++ (Ty.struct (request a)).wire (flexible a v) v x

/-- A request as it is put on a connection: its length and the request. -/
def requestFrame (a : Api) (v : Int16) (correlationId : Int32) (clientId : GoString) (x : Val) : List Byte :=
  Wire.bigEndian 4 (requestPayload a v correlationId clientId x).length ++
    requestPayload a v correlationId clientId x

/-- A reply with its header. -/
def replyPayload (a : Api) (v : Int16) (correlationId : Int32) (x : Val) : List Byte :=
  ResponseHeader.wire false (responseHeaderVersion a v) (.struct [("CorrelationId", .int32 correlationId)]) ++
    tags (responseHeaderVersion a v = 1) ++ (Ty.struct (response a)).wire (flexible a v) v x

end Kafka.Protocol
