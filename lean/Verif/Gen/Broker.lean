import Verif.Gen.Model.Produce
import Verif.Gen.Model.Fetch
import Verif.Gen.Model.ListOffset
import Verif.Gen.Model.Metadata
import Verif.Gen.Model.LeaderAndIsr
import Verif.Gen.Model.StopReplica
import Verif.Gen.Model.UpdateMetadata
import Verif.Gen.Model.ControlledShutdown
import Verif.Gen.Model.OffsetCommit
import Verif.Gen.Model.OffsetFetch
import Verif.Gen.Model.FindCoordinator
import Verif.Gen.Model.JoinGroup
import Verif.Gen.Model.Heartbeat
import Verif.Gen.Model.LeaveGroup
import Verif.Gen.Model.SyncGroup
import Verif.Gen.Model.DescribeGroups
import Verif.Gen.Model.ListGroups
import Verif.Gen.Model.SaslHandshake
import Verif.Gen.Model.ApiVersions
import Verif.Gen.Model.CreateTopics
import Verif.Gen.Model.DeleteTopics
import Verif.Gen.Model.DeleteRecords
import Verif.Gen.Model.InitProducerId
import Verif.Gen.Model.OffsetForLeaderEpoch
import Verif.Gen.Model.AddPartitionsToTxn
import Verif.Gen.Model.AddOffsetsToTxn
import Verif.Gen.Model.EndTxn
import Verif.Gen.Model.WriteTxnMarkers
import Verif.Gen.Model.TxnOffsetCommit
import Verif.Gen.Model.DescribeAcls
import Verif.Gen.Model.CreateAcls
import Verif.Gen.Model.DeleteAcls
import Verif.Gen.Model.DescribeConfigs
import Verif.Gen.Model.AlterConfigs
import Verif.Gen.Model.AlterReplicaLogDirs
import Verif.Gen.Model.DescribeLogDirs
import Verif.Gen.Model.SaslAuthenticate
import Verif.Gen.Model.CreatePartitions
import Verif.Gen.Model.CreateDelegationToken
import Verif.Gen.Model.RenewDelegationToken
import Verif.Gen.Model.ExpireDelegationToken
import Verif.Gen.Model.DescribeDelegationToken
import Verif.Gen.Model.DeleteGroups
import Verif.Gen.Model.ElectLeaders
import Verif.Gen.Model.IncrementalAlterConfigs
import Verif.Gen.Model.AlterPartitionReassignments
import Verif.Gen.Model.ListPartitionReassignments
import Verif.Gen.Model.OffsetDelete
import Verif.Gen.Model.Header
import Verif.Gen.ApiVersion
import Verif.Broker.Config
/-!
Generated by tools/gen_broker.py from gen.broker.go: the 48 API methods.
-/
namespace Kafka

open Msg

/-- gen.broker.go:26-30 `Broker`; the connection is modelled in Verif.Conn. -/
structure Broker where
  apiVersion : ApiVersion := {}
  config : Config

/-- The two functions an API method hands to `Conn.Do`: `encode` writes the request for a
correlation id, `decode` reads the response body into a fresh response value. -/
structure Call (α : Type) where
  encode : Int32 → Encoder → Encoder
  decode : Dec α

/-- gen.broker.go:66-88 `Broker.Produce` -/
def Broker.produce (b : Broker) (req : ProduceRequest) : Call ProduceResponse :=
  { encode := fun correlationID =>
      let hdr : RequestHeader :=
        { RequestApiKey := Key.produce, RequestApiVersion := b.apiVersion.Produce,
          CorrelationId := correlationID, ClientId := b.config.clientID }
      let size := RequestHeader.size 2 hdr + ProduceRequest.size b.apiVersion.Produce req
      (·.putInt32 size) ;; RequestHeader.encode 2 hdr ;;
      ProduceRequest.encode b.apiVersion.Produce req
    decode := ProduceResponse.decode b.apiVersion.Produce {} }

/-- gen.broker.go:91-113 `Broker.Fetch` -/
def Broker.fetch (b : Broker) (req : FetchRequest) : Call FetchResponse :=
  { encode := fun correlationID =>
      let hdr : RequestHeader :=
        { RequestApiKey := Key.fetch, RequestApiVersion := b.apiVersion.Fetch,
          CorrelationId := correlationID, ClientId := b.config.clientID }
      let size := RequestHeader.size 2 hdr + FetchRequest.size b.apiVersion.Fetch req
      (·.putInt32 size) ;; RequestHeader.encode 2 hdr ;;
      FetchRequest.encode b.apiVersion.Fetch req
    decode := FetchResponse.decode b.apiVersion.Fetch {} }

/-- gen.broker.go:116-138 `Broker.ListOffset` -/
def Broker.listOffset (b : Broker) (req : ListOffsetRequest) : Call ListOffsetResponse :=
  { encode := fun correlationID =>
      let hdr : RequestHeader :=
        { RequestApiKey := Key.listOffset, RequestApiVersion := b.apiVersion.ListOffset,
          CorrelationId := correlationID, ClientId := b.config.clientID }
      let size := RequestHeader.size 2 hdr + ListOffsetRequest.size b.apiVersion.ListOffset req
      (·.putInt32 size) ;; RequestHeader.encode 2 hdr ;;
      ListOffsetRequest.encode b.apiVersion.ListOffset req
    decode := ListOffsetResponse.decode b.apiVersion.ListOffset {} }

/-- gen.broker.go:141-163 `Broker.Metadata` -/
def Broker.metadata (b : Broker) (req : MetadataRequest) : Call MetadataResponse :=
  { encode := fun correlationID =>
      let hdr : RequestHeader :=
        { RequestApiKey := Key.metadata, RequestApiVersion := b.apiVersion.Metadata,
          CorrelationId := correlationID, ClientId := b.config.clientID }
      let size := RequestHeader.size 2 hdr + MetadataRequest.size b.apiVersion.Metadata req
      (·.putInt32 size) ;; RequestHeader.encode 2 hdr ;;
      MetadataRequest.encode b.apiVersion.Metadata req
    decode := MetadataResponse.decode b.apiVersion.Metadata {} }

/-- gen.broker.go:166-188 `Broker.LeaderAndIsr` -/
def Broker.leaderAndIsr (b : Broker) (req : LeaderAndIsrRequest) : Call LeaderAndIsrResponse :=
  { encode := fun correlationID =>
      let hdr : RequestHeader :=
        { RequestApiKey := Key.leaderAndIsr, RequestApiVersion := b.apiVersion.LeaderAndIsr,
          CorrelationId := correlationID, ClientId := b.config.clientID }
      let size := RequestHeader.size 2 hdr + LeaderAndIsrRequest.size b.apiVersion.LeaderAndIsr req
      (·.putInt32 size) ;; RequestHeader.encode 2 hdr ;;
      LeaderAndIsrRequest.encode b.apiVersion.LeaderAndIsr req
    decode := LeaderAndIsrResponse.decode b.apiVersion.LeaderAndIsr {} }

/-- gen.broker.go:191-213 `Broker.StopReplica` -/
def Broker.stopReplica (b : Broker) (req : StopReplicaRequest) : Call StopReplicaResponse :=
  { encode := fun correlationID =>
      let hdr : RequestHeader :=
        { RequestApiKey := Key.stopReplica, RequestApiVersion := b.apiVersion.StopReplica,
          CorrelationId := correlationID, ClientId := b.config.clientID }
      let size := RequestHeader.size 2 hdr + StopReplicaRequest.size b.apiVersion.StopReplica req
      (·.putInt32 size) ;; RequestHeader.encode 2 hdr ;;
      StopReplicaRequest.encode b.apiVersion.StopReplica req
    decode := StopReplicaResponse.decode b.apiVersion.StopReplica {} }

/-- gen.broker.go:216-238 `Broker.UpdateMetadata` -/
def Broker.updateMetadata (b : Broker) (req : UpdateMetadataRequest) : Call UpdateMetadataResponse :=
  { encode := fun correlationID =>
      let hdr : RequestHeader :=
        { RequestApiKey := Key.updateMetadata, RequestApiVersion := b.apiVersion.UpdateMetadata,
          CorrelationId := correlationID, ClientId := b.config.clientID }
      let size := RequestHeader.size 2 hdr + UpdateMetadataRequest.size b.apiVersion.UpdateMetadata req
      (·.putInt32 size) ;; RequestHeader.encode 2 hdr ;;
      UpdateMetadataRequest.encode b.apiVersion.UpdateMetadata req
    decode := UpdateMetadataResponse.decode b.apiVersion.UpdateMetadata {} }

/-- gen.broker.go:241-263 `Broker.ControlledShutdown` -/
def Broker.controlledShutdown (b : Broker) (req : ControlledShutdownRequest) : Call ControlledShutdownResponse :=
  { encode := fun correlationID =>
      let hdr : RequestHeader :=
        { RequestApiKey := Key.controlledShutdown, RequestApiVersion := b.apiVersion.ControlledShutdown,
          CorrelationId := correlationID, ClientId := b.config.clientID }
      let size := RequestHeader.size 2 hdr + ControlledShutdownRequest.size b.apiVersion.ControlledShutdown req
      (·.putInt32 size) ;; RequestHeader.encode 2 hdr ;;
      ControlledShutdownRequest.encode b.apiVersion.ControlledShutdown req
    decode := ControlledShutdownResponse.decode b.apiVersion.ControlledShutdown {} }

/-- gen.broker.go:266-288 `Broker.OffsetCommit` -/
def Broker.offsetCommit (b : Broker) (req : OffsetCommitRequest) : Call OffsetCommitResponse :=
  { encode := fun correlationID =>
      let hdr : RequestHeader :=
        { RequestApiKey := Key.offsetCommit, RequestApiVersion := b.apiVersion.OffsetCommit,
          CorrelationId := correlationID, ClientId := b.config.clientID }
      let size := RequestHeader.size 2 hdr + OffsetCommitRequest.size b.apiVersion.OffsetCommit req
      (·.putInt32 size) ;; RequestHeader.encode 2 hdr ;;
      OffsetCommitRequest.encode b.apiVersion.OffsetCommit req
    decode := OffsetCommitResponse.decode b.apiVersion.OffsetCommit {} }

/-- gen.broker.go:291-313 `Broker.OffsetFetch` -/
def Broker.offsetFetch (b : Broker) (req : OffsetFetchRequest) : Call OffsetFetchResponse :=
  { encode := fun correlationID =>
      let hdr : RequestHeader :=
        { RequestApiKey := Key.offsetFetch, RequestApiVersion := b.apiVersion.OffsetFetch,
          CorrelationId := correlationID, ClientId := b.config.clientID }
      let size := RequestHeader.size 2 hdr + OffsetFetchRequest.size b.apiVersion.OffsetFetch req
      (·.putInt32 size) ;; RequestHeader.encode 2 hdr ;;
      OffsetFetchRequest.encode b.apiVersion.OffsetFetch req
    decode := OffsetFetchResponse.decode b.apiVersion.OffsetFetch {} }

/-- gen.broker.go:316-338 `Broker.FindCoordinator` -/
def Broker.findCoordinator (b : Broker) (req : FindCoordinatorRequest) : Call FindCoordinatorResponse :=
  { encode := fun correlationID =>
      let hdr : RequestHeader :=
        { RequestApiKey := Key.findCoordinator, RequestApiVersion := b.apiVersion.FindCoordinator,
          CorrelationId := correlationID, ClientId := b.config.clientID }
      let size := RequestHeader.size 2 hdr + FindCoordinatorRequest.size b.apiVersion.FindCoordinator req
      (·.putInt32 size) ;; RequestHeader.encode 2 hdr ;;
      FindCoordinatorRequest.encode b.apiVersion.FindCoordinator req
    decode := FindCoordinatorResponse.decode b.apiVersion.FindCoordinator {} }

/-- gen.broker.go:341-363 `Broker.JoinGroup` -/
def Broker.joinGroup (b : Broker) (req : JoinGroupRequest) : Call JoinGroupResponse :=
  { encode := fun correlationID =>
      let hdr : RequestHeader :=
        { RequestApiKey := Key.joinGroup, RequestApiVersion := b.apiVersion.JoinGroup,
          CorrelationId := correlationID, ClientId := b.config.clientID }
      let size := RequestHeader.size 2 hdr + JoinGroupRequest.size b.apiVersion.JoinGroup req
      (·.putInt32 size) ;; RequestHeader.encode 2 hdr ;;
      JoinGroupRequest.encode b.apiVersion.JoinGroup req
    decode := JoinGroupResponse.decode b.apiVersion.JoinGroup {} }

/-- gen.broker.go:366-388 `Broker.Heartbeat` -/
def Broker.heartbeat (b : Broker) (req : HeartbeatRequest) : Call HeartbeatResponse :=
  { encode := fun correlationID =>
      let hdr : RequestHeader :=
        { RequestApiKey := Key.heartbeat, RequestApiVersion := b.apiVersion.Heartbeat,
          CorrelationId := correlationID, ClientId := b.config.clientID }
      let size := RequestHeader.size 2 hdr + HeartbeatRequest.size b.apiVersion.Heartbeat req
      (·.putInt32 size) ;; RequestHeader.encode 2 hdr ;;
      HeartbeatRequest.encode b.apiVersion.Heartbeat req
    decode := HeartbeatResponse.decode b.apiVersion.Heartbeat {} }

/-- gen.broker.go:391-413 `Broker.LeaveGroup` -/
def Broker.leaveGroup (b : Broker) (req : LeaveGroupRequest) : Call LeaveGroupResponse :=
  { encode := fun correlationID =>
      let hdr : RequestHeader :=
        { RequestApiKey := Key.leaveGroup, RequestApiVersion := b.apiVersion.LeaveGroup,
          CorrelationId := correlationID, ClientId := b.config.clientID }
      let size := RequestHeader.size 2 hdr + LeaveGroupRequest.size b.apiVersion.LeaveGroup req
      (·.putInt32 size) ;; RequestHeader.encode 2 hdr ;;
      LeaveGroupRequest.encode b.apiVersion.LeaveGroup req
    decode := LeaveGroupResponse.decode b.apiVersion.LeaveGroup {} }

/-- gen.broker.go:416-438 `Broker.SyncGroup` -/
def Broker.syncGroup (b : Broker) (req : SyncGroupRequest) : Call SyncGroupResponse :=
  { encode := fun correlationID =>
      let hdr : RequestHeader :=
        { RequestApiKey := Key.syncGroup, RequestApiVersion := b.apiVersion.SyncGroup,
          CorrelationId := correlationID, ClientId := b.config.clientID }
      let size := RequestHeader.size 2 hdr + SyncGroupRequest.size b.apiVersion.SyncGroup req
      (·.putInt32 size) ;; RequestHeader.encode 2 hdr ;;
      SyncGroupRequest.encode b.apiVersion.SyncGroup req
    decode := SyncGroupResponse.decode b.apiVersion.SyncGroup {} }

/-- gen.broker.go:441-463 `Broker.DescribeGroups` -/
def Broker.describeGroups (b : Broker) (req : DescribeGroupsRequest) : Call DescribeGroupsResponse :=
  { encode := fun correlationID =>
      let hdr : RequestHeader :=
        { RequestApiKey := Key.describeGroups, RequestApiVersion := b.apiVersion.DescribeGroups,
          CorrelationId := correlationID, ClientId := b.config.clientID }
      let size := RequestHeader.size 2 hdr + DescribeGroupsRequest.size b.apiVersion.DescribeGroups req
      (·.putInt32 size) ;; RequestHeader.encode 2 hdr ;;
      DescribeGroupsRequest.encode b.apiVersion.DescribeGroups req
    decode := DescribeGroupsResponse.decode b.apiVersion.DescribeGroups {} }

/-- gen.broker.go:466-488 `Broker.ListGroups` -/
def Broker.listGroups (b : Broker) (req : ListGroupsRequest) : Call ListGroupsResponse :=
  { encode := fun correlationID =>
      let hdr : RequestHeader :=
        { RequestApiKey := Key.listGroups, RequestApiVersion := b.apiVersion.ListGroups,
          CorrelationId := correlationID, ClientId := b.config.clientID }
      let size := RequestHeader.size 2 hdr + ListGroupsRequest.size b.apiVersion.ListGroups req
      (·.putInt32 size) ;; RequestHeader.encode 2 hdr ;;
      ListGroupsRequest.encode b.apiVersion.ListGroups req
    decode := ListGroupsResponse.decode b.apiVersion.ListGroups {} }

/-- gen.broker.go:491-513 `Broker.SaslHandshake` -/
def Broker.saslHandshake (b : Broker) (req : SaslHandshakeRequest) : Call SaslHandshakeResponse :=
  { encode := fun correlationID =>
      let hdr : RequestHeader :=
        { RequestApiKey := Key.saslHandshake, RequestApiVersion := b.apiVersion.SaslHandshake,
          CorrelationId := correlationID, ClientId := b.config.clientID }
      let size := RequestHeader.size 2 hdr + SaslHandshakeRequest.size b.apiVersion.SaslHandshake req
      (·.putInt32 size) ;; RequestHeader.encode 2 hdr ;;
      SaslHandshakeRequest.encode b.apiVersion.SaslHandshake req
    decode := SaslHandshakeResponse.decode b.apiVersion.SaslHandshake {} }

/-- gen.broker.go:516-538 `Broker.ApiVersions` -/
def Broker.apiVersions (b : Broker) (req : ApiVersionsRequest) : Call ApiVersionsResponse :=
  { encode := fun correlationID =>
      let hdr : RequestHeader :=
        { RequestApiKey := Key.apiVersions, RequestApiVersion := b.apiVersion.ApiVersions,
          CorrelationId := correlationID, ClientId := b.config.clientID }
      let size := RequestHeader.size 2 hdr + ApiVersionsRequest.size b.apiVersion.ApiVersions req
      (·.putInt32 size) ;; RequestHeader.encode 2 hdr ;;
      ApiVersionsRequest.encode b.apiVersion.ApiVersions req
    decode := ApiVersionsResponse.decode b.apiVersion.ApiVersions {} }

/-- gen.broker.go:541-563 `Broker.CreateTopics` -/
def Broker.createTopics (b : Broker) (req : CreateTopicsRequest) : Call CreateTopicsResponse :=
  { encode := fun correlationID =>
      let hdr : RequestHeader :=
        { RequestApiKey := Key.createTopics, RequestApiVersion := b.apiVersion.CreateTopics,
          CorrelationId := correlationID, ClientId := b.config.clientID }
      let size := RequestHeader.size 2 hdr + CreateTopicsRequest.size b.apiVersion.CreateTopics req
      (·.putInt32 size) ;; RequestHeader.encode 2 hdr ;;
      CreateTopicsRequest.encode b.apiVersion.CreateTopics req
    decode := CreateTopicsResponse.decode b.apiVersion.CreateTopics {} }

/-- gen.broker.go:566-588 `Broker.DeleteTopics` -/
def Broker.deleteTopics (b : Broker) (req : DeleteTopicsRequest) : Call DeleteTopicsResponse :=
  { encode := fun correlationID =>
      let hdr : RequestHeader :=
        { RequestApiKey := Key.deleteTopics, RequestApiVersion := b.apiVersion.DeleteTopics,
          CorrelationId := correlationID, ClientId := b.config.clientID }
      let size := RequestHeader.size 2 hdr + DeleteTopicsRequest.size b.apiVersion.DeleteTopics req
      (·.putInt32 size) ;; RequestHeader.encode 2 hdr ;;
      DeleteTopicsRequest.encode b.apiVersion.DeleteTopics req
    decode := DeleteTopicsResponse.decode b.apiVersion.DeleteTopics {} }

/-- gen.broker.go:591-613 `Broker.DeleteRecords` -/
def Broker.deleteRecords (b : Broker) (req : DeleteRecordsRequest) : Call DeleteRecordsResponse :=
  { encode := fun correlationID =>
      let hdr : RequestHeader :=
        { RequestApiKey := Key.deleteRecords, RequestApiVersion := b.apiVersion.DeleteRecords,
          CorrelationId := correlationID, ClientId := b.config.clientID }
      let size := RequestHeader.size 2 hdr + DeleteRecordsRequest.size b.apiVersion.DeleteRecords req
      (·.putInt32 size) ;; RequestHeader.encode 2 hdr ;;
      DeleteRecordsRequest.encode b.apiVersion.DeleteRecords req
    decode := DeleteRecordsResponse.decode b.apiVersion.DeleteRecords {} }

/-- gen.broker.go:616-638 `Broker.InitProducerId` -/
def Broker.initProducerId (b : Broker) (req : InitProducerIdRequest) : Call InitProducerIdResponse :=
  { encode := fun correlationID =>
      let hdr : RequestHeader :=
        { RequestApiKey := Key.initProducerId, RequestApiVersion := b.apiVersion.InitProducerId,
          CorrelationId := correlationID, ClientId := b.config.clientID }
      let size := RequestHeader.size 2 hdr + InitProducerIdRequest.size b.apiVersion.InitProducerId req
      (·.putInt32 size) ;; RequestHeader.encode 2 hdr ;;
      InitProducerIdRequest.encode b.apiVersion.InitProducerId req
    decode := InitProducerIdResponse.decode b.apiVersion.InitProducerId {} }

/-- gen.broker.go:641-663 `Broker.OffsetForLeaderEpoch` -/
def Broker.offsetForLeaderEpoch (b : Broker) (req : OffsetForLeaderEpochRequest) : Call OffsetForLeaderEpochResponse :=
  { encode := fun correlationID =>
      let hdr : RequestHeader :=
        { RequestApiKey := Key.offsetForLeaderEpoch, RequestApiVersion := b.apiVersion.OffsetForLeaderEpoch,
          CorrelationId := correlationID, ClientId := b.config.clientID }
      let size := RequestHeader.size 2 hdr + OffsetForLeaderEpochRequest.size b.apiVersion.OffsetForLeaderEpoch req
      (·.putInt32 size) ;; RequestHeader.encode 2 hdr ;;
      OffsetForLeaderEpochRequest.encode b.apiVersion.OffsetForLeaderEpoch req
    decode := OffsetForLeaderEpochResponse.decode b.apiVersion.OffsetForLeaderEpoch {} }

/-- gen.broker.go:666-688 `Broker.AddPartitionsToTxn` -/
def Broker.addPartitionsToTxn (b : Broker) (req : AddPartitionsToTxnRequest) : Call AddPartitionsToTxnResponse :=
  { encode := fun correlationID =>
      let hdr : RequestHeader :=
        { RequestApiKey := Key.addPartitionsToTxn, RequestApiVersion := b.apiVersion.AddPartitionsToTxn,
          CorrelationId := correlationID, ClientId := b.config.clientID }
      let size := RequestHeader.size 2 hdr + AddPartitionsToTxnRequest.size b.apiVersion.AddPartitionsToTxn req
      (·.putInt32 size) ;; RequestHeader.encode 2 hdr ;;
      AddPartitionsToTxnRequest.encode b.apiVersion.AddPartitionsToTxn req
    decode := AddPartitionsToTxnResponse.decode b.apiVersion.AddPartitionsToTxn {} }

/-- gen.broker.go:691-713 `Broker.AddOffsetsToTxn` -/
def Broker.addOffsetsToTxn (b : Broker) (req : AddOffsetsToTxnRequest) : Call AddOffsetsToTxnResponse :=
  { encode := fun correlationID =>
      let hdr : RequestHeader :=
        { RequestApiKey := Key.addOffsetsToTxn, RequestApiVersion := b.apiVersion.AddOffsetsToTxn,
          CorrelationId := correlationID, ClientId := b.config.clientID }
      let size := RequestHeader.size 2 hdr + AddOffsetsToTxnRequest.size b.apiVersion.AddOffsetsToTxn req
      (·.putInt32 size) ;; RequestHeader.encode 2 hdr ;;
      AddOffsetsToTxnRequest.encode b.apiVersion.AddOffsetsToTxn req
    decode := AddOffsetsToTxnResponse.decode b.apiVersion.AddOffsetsToTxn {} }

/-- gen.broker.go:716-738 `Broker.EndTxn` -/
def Broker.endTxn (b : Broker) (req : EndTxnRequest) : Call EndTxnResponse :=
  { encode := fun correlationID =>
      let hdr : RequestHeader :=
        { RequestApiKey := Key.endTxn, RequestApiVersion := b.apiVersion.EndTxn,
          CorrelationId := correlationID, ClientId := b.config.clientID }
      let size := RequestHeader.size 2 hdr + EndTxnRequest.size b.apiVersion.EndTxn req
      (·.putInt32 size) ;; RequestHeader.encode 2 hdr ;;
      EndTxnRequest.encode b.apiVersion.EndTxn req
    decode := EndTxnResponse.decode b.apiVersion.EndTxn {} }

/-- gen.broker.go:741-763 `Broker.WriteTxnMarkers` -/
def Broker.writeTxnMarkers (b : Broker) (req : WriteTxnMarkersRequest) : Call WriteTxnMarkersResponse :=
  { encode := fun correlationID =>
      let hdr : RequestHeader :=
        { RequestApiKey := Key.writeTxnMarkers, RequestApiVersion := b.apiVersion.WriteTxnMarkers,
          CorrelationId := correlationID, ClientId := b.config.clientID }
      let size := RequestHeader.size 2 hdr + WriteTxnMarkersRequest.size b.apiVersion.WriteTxnMarkers req
      (·.putInt32 size) ;; RequestHeader.encode 2 hdr ;;
      WriteTxnMarkersRequest.encode b.apiVersion.WriteTxnMarkers req
    decode := WriteTxnMarkersResponse.decode b.apiVersion.WriteTxnMarkers {} }

/-- gen.broker.go:766-788 `Broker.TxnOffsetCommit` -/
def Broker.txnOffsetCommit (b : Broker) (req : TxnOffsetCommitRequest) : Call TxnOffsetCommitResponse :=
  { encode := fun correlationID =>
      let hdr : RequestHeader :=
        { RequestApiKey := Key.txnOffsetCommit, RequestApiVersion := b.apiVersion.TxnOffsetCommit,
          CorrelationId := correlationID, ClientId := b.config.clientID }
      let size := RequestHeader.size 2 hdr + TxnOffsetCommitRequest.size b.apiVersion.TxnOffsetCommit req
      (·.putInt32 size) ;; RequestHeader.encode 2 hdr ;;
      TxnOffsetCommitRequest.encode b.apiVersion.TxnOffsetCommit req
    decode := TxnOffsetCommitResponse.decode b.apiVersion.TxnOffsetCommit {} }

/-- gen.broker.go:791-813 `Broker.DescribeAcls` -/
def Broker.describeAcls (b : Broker) (req : DescribeAclsRequest) : Call DescribeAclsResponse :=
  { encode := fun correlationID =>
      let hdr : RequestHeader :=
        { RequestApiKey := Key.describeAcls, RequestApiVersion := b.apiVersion.DescribeAcls,
          CorrelationId := correlationID, ClientId := b.config.clientID }
      let size := RequestHeader.size 2 hdr + DescribeAclsRequest.size b.apiVersion.DescribeAcls req
      (·.putInt32 size) ;; RequestHeader.encode 2 hdr ;;
      DescribeAclsRequest.encode b.apiVersion.DescribeAcls req
    decode := DescribeAclsResponse.decode b.apiVersion.DescribeAcls {} }

/-- gen.broker.go:816-838 `Broker.CreateAcls` -/
def Broker.createAcls (b : Broker) (req : CreateAclsRequest) : Call CreateAclsResponse :=
  { encode := fun correlationID =>
      let hdr : RequestHeader :=
        { RequestApiKey := Key.createAcls, RequestApiVersion := b.apiVersion.CreateAcls,
          CorrelationId := correlationID, ClientId := b.config.clientID }
      let size := RequestHeader.size 2 hdr + CreateAclsRequest.size b.apiVersion.CreateAcls req
      (·.putInt32 size) ;; RequestHeader.encode 2 hdr ;;
      CreateAclsRequest.encode b.apiVersion.CreateAcls req
    decode := CreateAclsResponse.decode b.apiVersion.CreateAcls {} }

/-- gen.broker.go:841-863 `Broker.DeleteAcls` -/
def Broker.deleteAcls (b : Broker) (req : DeleteAclsRequest) : Call DeleteAclsResponse :=
  { encode := fun correlationID =>
      let hdr : RequestHeader :=
        { RequestApiKey := Key.deleteAcls, RequestApiVersion := b.apiVersion.DeleteAcls,
          CorrelationId := correlationID, ClientId := b.config.clientID }
      let size := RequestHeader.size 2 hdr + DeleteAclsRequest.size b.apiVersion.DeleteAcls req
      (·.putInt32 size) ;; RequestHeader.encode 2 hdr ;;
      DeleteAclsRequest.encode b.apiVersion.DeleteAcls req
    decode := DeleteAclsResponse.decode b.apiVersion.DeleteAcls {} }

/-- gen.broker.go:866-888 `Broker.DescribeConfigs` -/
def Broker.describeConfigs (b : Broker) (req : DescribeConfigsRequest) : Call DescribeConfigsResponse :=
  { encode := fun correlationID =>
      let hdr : RequestHeader :=
        { RequestApiKey := Key.describeConfigs, RequestApiVersion := b.apiVersion.DescribeConfigs,
          CorrelationId := correlationID, ClientId := b.config.clientID }
      let size := RequestHeader.size 2 hdr + DescribeConfigsRequest.size b.apiVersion.DescribeConfigs req
      (·.putInt32 size) ;; RequestHeader.encode 2 hdr ;;
      DescribeConfigsRequest.encode b.apiVersion.DescribeConfigs req
    decode := DescribeConfigsResponse.decode b.apiVersion.DescribeConfigs {} }

/-- gen.broker.go:891-913 `Broker.AlterConfigs` -/
def Broker.alterConfigs (b : Broker) (req : AlterConfigsRequest) : Call AlterConfigsResponse :=
  { encode := fun correlationID =>
      let hdr : RequestHeader :=
        { RequestApiKey := Key.alterConfigs, RequestApiVersion := b.apiVersion.AlterConfigs,
          CorrelationId := correlationID, ClientId := b.config.clientID }
      let size := RequestHeader.size 2 hdr + AlterConfigsRequest.size b.apiVersion.AlterConfigs req
      (·.putInt32 size) ;; RequestHeader.encode 2 hdr ;;
      AlterConfigsRequest.encode b.apiVersion.AlterConfigs req
    decode := AlterConfigsResponse.decode b.apiVersion.AlterConfigs {} }

/-- gen.broker.go:916-938 `Broker.AlterReplicaLogDirs` -/
def Broker.alterReplicaLogDirs (b : Broker) (req : AlterReplicaLogDirsRequest) : Call AlterReplicaLogDirsResponse :=
  { encode := fun correlationID =>
      let hdr : RequestHeader :=
        { RequestApiKey := Key.alterReplicaLogDirs, RequestApiVersion := b.apiVersion.AlterReplicaLogDirs,
          CorrelationId := correlationID, ClientId := b.config.clientID }
      let size := RequestHeader.size 2 hdr + AlterReplicaLogDirsRequest.size b.apiVersion.AlterReplicaLogDirs req
      (·.putInt32 size) ;; RequestHeader.encode 2 hdr ;;
      AlterReplicaLogDirsRequest.encode b.apiVersion.AlterReplicaLogDirs req
    decode := AlterReplicaLogDirsResponse.decode b.apiVersion.AlterReplicaLogDirs {} }

/-- gen.broker.go:941-963 `Broker.DescribeLogDirs` -/
def Broker.describeLogDirs (b : Broker) (req : DescribeLogDirsRequest) : Call DescribeLogDirsResponse :=
  { encode := fun correlationID =>
      let hdr : RequestHeader :=
        { RequestApiKey := Key.describeLogDirs, RequestApiVersion := b.apiVersion.DescribeLogDirs,
          CorrelationId := correlationID, ClientId := b.config.clientID }
      let size := RequestHeader.size 2 hdr + DescribeLogDirsRequest.size b.apiVersion.DescribeLogDirs req
      (·.putInt32 size) ;; RequestHeader.encode 2 hdr ;;
      DescribeLogDirsRequest.encode b.apiVersion.DescribeLogDirs req
    decode := DescribeLogDirsResponse.decode b.apiVersion.DescribeLogDirs {} }

/-- gen.broker.go:966-988 `Broker.SaslAuthenticate` -/
def Broker.saslAuthenticate (b : Broker) (req : SaslAuthenticateRequest) : Call SaslAuthenticateResponse :=
  { encode := fun correlationID =>
      let hdr : RequestHeader :=
        { RequestApiKey := Key.saslAuthenticate, RequestApiVersion := b.apiVersion.SaslAuthenticate,
          CorrelationId := correlationID, ClientId := b.config.clientID }
      let size := RequestHeader.size 2 hdr + SaslAuthenticateRequest.size b.apiVersion.SaslAuthenticate req
      (·.putInt32 size) ;; RequestHeader.encode 2 hdr ;;
      SaslAuthenticateRequest.encode b.apiVersion.SaslAuthenticate req
    decode := SaslAuthenticateResponse.decode b.apiVersion.SaslAuthenticate {} }

/-- gen.broker.go:991-1013 `Broker.CreatePartitions` -/
def Broker.createPartitions (b : Broker) (req : CreatePartitionsRequest) : Call CreatePartitionsResponse :=
  { encode := fun correlationID =>
      let hdr : RequestHeader :=
        { RequestApiKey := Key.createPartitions, RequestApiVersion := b.apiVersion.CreatePartitions,
          CorrelationId := correlationID, ClientId := b.config.clientID }
      let size := RequestHeader.size 2 hdr + CreatePartitionsRequest.size b.apiVersion.CreatePartitions req
      (·.putInt32 size) ;; RequestHeader.encode 2 hdr ;;
      CreatePartitionsRequest.encode b.apiVersion.CreatePartitions req
    decode := CreatePartitionsResponse.decode b.apiVersion.CreatePartitions {} }

/-- gen.broker.go:1016-1038 `Broker.CreateDelegationToken` -/
def Broker.createDelegationToken (b : Broker) (req : CreateDelegationTokenRequest) : Call CreateDelegationTokenResponse :=
  { encode := fun correlationID =>
      let hdr : RequestHeader :=
        { RequestApiKey := Key.createDelegationToken, RequestApiVersion := b.apiVersion.CreateDelegationToken,
          CorrelationId := correlationID, ClientId := b.config.clientID }
      let size := RequestHeader.size 2 hdr + CreateDelegationTokenRequest.size b.apiVersion.CreateDelegationToken req
      (·.putInt32 size) ;; RequestHeader.encode 2 hdr ;;
      CreateDelegationTokenRequest.encode b.apiVersion.CreateDelegationToken req
    decode := CreateDelegationTokenResponse.decode b.apiVersion.CreateDelegationToken {} }

/-- gen.broker.go:1041-1063 `Broker.RenewDelegationToken` -/
def Broker.renewDelegationToken (b : Broker) (req : RenewDelegationTokenRequest) : Call RenewDelegationTokenResponse :=
  { encode := fun correlationID =>
      let hdr : RequestHeader :=
        { RequestApiKey := Key.renewDelegationToken, RequestApiVersion := b.apiVersion.RenewDelegationToken,
          CorrelationId := correlationID, ClientId := b.config.clientID }
      let size := RequestHeader.size 2 hdr + RenewDelegationTokenRequest.size b.apiVersion.RenewDelegationToken req
      (·.putInt32 size) ;; RequestHeader.encode 2 hdr ;;
      RenewDelegationTokenRequest.encode b.apiVersion.RenewDelegationToken req
    decode := RenewDelegationTokenResponse.decode b.apiVersion.RenewDelegationToken {} }

/-- gen.broker.go:1066-1088 `Broker.ExpireDelegationToken` -/
def Broker.expireDelegationToken (b : Broker) (req : ExpireDelegationTokenRequest) : Call ExpireDelegationTokenResponse :=
  { encode := fun correlationID =>
      let hdr : RequestHeader :=
        { RequestApiKey := Key.expireDelegationToken, RequestApiVersion := b.apiVersion.ExpireDelegationToken,
          CorrelationId := correlationID, ClientId := b.config.clientID }
      let size := RequestHeader.size 2 hdr + ExpireDelegationTokenRequest.size b.apiVersion.ExpireDelegationToken req
      (·.putInt32 size) ;; RequestHeader.encode 2 hdr ;;
      ExpireDelegationTokenRequest.encode b.apiVersion.ExpireDelegationToken req
    decode := ExpireDelegationTokenResponse.decode b.apiVersion.ExpireDelegationToken {} }

/-- gen.broker.go:1091-1113 `Broker.DescribeDelegationToken` -/
def Broker.describeDelegationToken (b : Broker) (req : DescribeDelegationTokenRequest) : Call DescribeDelegationTokenResponse :=
  { encode := fun correlationID =>
      let hdr : RequestHeader :=
        { RequestApiKey := Key.describeDelegationToken, RequestApiVersion := b.apiVersion.DescribeDelegationToken,
          CorrelationId := correlationID, ClientId := b.config.clientID }
      let size := RequestHeader.size 2 hdr + DescribeDelegationTokenRequest.size b.apiVersion.DescribeDelegationToken req
      (·.putInt32 size) ;; RequestHeader.encode 2 hdr ;;
      DescribeDelegationTokenRequest.encode b.apiVersion.DescribeDelegationToken req
    decode := DescribeDelegationTokenResponse.decode b.apiVersion.DescribeDelegationToken {} }

/-- gen.broker.go:1116-1138 `Broker.DeleteGroups` -/
def Broker.deleteGroups (b : Broker) (req : DeleteGroupsRequest) : Call DeleteGroupsResponse :=
  { encode := fun correlationID =>
      let hdr : RequestHeader :=
        { RequestApiKey := Key.deleteGroups, RequestApiVersion := b.apiVersion.DeleteGroups,
          CorrelationId := correlationID, ClientId := b.config.clientID }
      let size := RequestHeader.size 2 hdr + DeleteGroupsRequest.size b.apiVersion.DeleteGroups req
      (·.putInt32 size) ;; RequestHeader.encode 2 hdr ;;
      DeleteGroupsRequest.encode b.apiVersion.DeleteGroups req
    decode := DeleteGroupsResponse.decode b.apiVersion.DeleteGroups {} }

/-- gen.broker.go:1141-1163 `Broker.ElectLeaders` -/
def Broker.electLeaders (b : Broker) (req : ElectLeadersRequest) : Call ElectLeadersResponse :=
  { encode := fun correlationID =>
      let hdr : RequestHeader :=
        { RequestApiKey := Key.electLeaders, RequestApiVersion := b.apiVersion.ElectLeaders,
          CorrelationId := correlationID, ClientId := b.config.clientID }
      let size := RequestHeader.size 2 hdr + ElectLeadersRequest.size b.apiVersion.ElectLeaders req
      (·.putInt32 size) ;; RequestHeader.encode 2 hdr ;;
      ElectLeadersRequest.encode b.apiVersion.ElectLeaders req
    decode := ElectLeadersResponse.decode b.apiVersion.ElectLeaders {} }

/-- gen.broker.go:1166-1188 `Broker.IncrementalAlterConfigs` -/
def Broker.incrementalAlterConfigs (b : Broker) (req : IncrementalAlterConfigsRequest) : Call IncrementalAlterConfigsResponse :=
  { encode := fun correlationID =>
      let hdr : RequestHeader :=
        { RequestApiKey := Key.incrementalAlterConfigs, RequestApiVersion := b.apiVersion.IncrementalAlterConfigs,
          CorrelationId := correlationID, ClientId := b.config.clientID }
      let size := RequestHeader.size 2 hdr + IncrementalAlterConfigsRequest.size b.apiVersion.IncrementalAlterConfigs req
      (·.putInt32 size) ;; RequestHeader.encode 2 hdr ;;
      IncrementalAlterConfigsRequest.encode b.apiVersion.IncrementalAlterConfigs req
    decode := IncrementalAlterConfigsResponse.decode b.apiVersion.IncrementalAlterConfigs {} }

/-- gen.broker.go:1191-1213 `Broker.AlterPartitionReassignments` -/
def Broker.alterPartitionReassignments (b : Broker) (req : AlterPartitionReassignmentsRequest) : Call AlterPartitionReassignmentsResponse :=
  { encode := fun correlationID =>
      let hdr : RequestHeader :=
        { RequestApiKey := Key.alterPartitionReassignments, RequestApiVersion := b.apiVersion.AlterPartitionReassignments,
          CorrelationId := correlationID, ClientId := b.config.clientID }
      let size := RequestHeader.size 2 hdr + AlterPartitionReassignmentsRequest.size b.apiVersion.AlterPartitionReassignments req
      (·.putInt32 size) ;; RequestHeader.encode 2 hdr ;;
      AlterPartitionReassignmentsRequest.encode b.apiVersion.AlterPartitionReassignments req
    decode := AlterPartitionReassignmentsResponse.decode b.apiVersion.AlterPartitionReassignments {} }

/-- gen.broker.go:1216-1238 `Broker.ListPartitionReassignments` -/
def Broker.listPartitionReassignments (b : Broker) (req : ListPartitionReassignmentsRequest) : Call ListPartitionReassignmentsResponse :=
  { encode := fun correlationID =>
      let hdr : RequestHeader :=
        { RequestApiKey := Key.listPartitionReassignments, RequestApiVersion := b.apiVersion.ListPartitionReassignments,
          CorrelationId := correlationID, ClientId := b.config.clientID }
      let size := RequestHeader.size 2 hdr + ListPartitionReassignmentsRequest.size b.apiVersion.ListPartitionReassignments req
      (·.putInt32 size) ;; RequestHeader.encode 2 hdr ;;
      ListPartitionReassignmentsRequest.encode b.apiVersion.ListPartitionReassignments req
    decode := ListPartitionReassignmentsResponse.decode b.apiVersion.ListPartitionReassignments {} }

/-- gen.broker.go:1241-1263 `Broker.OffsetDelete` -/
def Broker.offsetDelete (b : Broker) (req : OffsetDeleteRequest) : Call OffsetDeleteResponse :=
  { encode := fun correlationID =>
      let hdr : RequestHeader :=
        { RequestApiKey := Key.offsetDelete, RequestApiVersion := b.apiVersion.OffsetDelete,
          CorrelationId := correlationID, ClientId := b.config.clientID }
      let size := RequestHeader.size 2 hdr + OffsetDeleteRequest.size b.apiVersion.OffsetDelete req
      (·.putInt32 size) ;; RequestHeader.encode 2 hdr ;;
      OffsetDeleteRequest.encode b.apiVersion.OffsetDelete req
    decode := OffsetDeleteResponse.decode b.apiVersion.OffsetDelete {} }

end Kafka
