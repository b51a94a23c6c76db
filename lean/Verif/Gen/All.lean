import Verif.Gen.Proof.Produce
import Verif.Gen.Proof.Header
import Verif.Gen.Proof.Fetch
import Verif.Gen.Proof.ListOffset
import Verif.Gen.Proof.Metadata
import Verif.Gen.Proof.LeaderAndIsr
import Verif.Gen.Proof.StopReplica
import Verif.Gen.Proof.UpdateMetadata
import Verif.Gen.Proof.ControlledShutdown
import Verif.Gen.Proof.OffsetCommit
import Verif.Gen.Proof.OffsetFetch
import Verif.Gen.Proof.FindCoordinator
import Verif.Gen.Proof.JoinGroup
import Verif.Gen.Proof.Heartbeat
import Verif.Gen.Proof.LeaveGroup
import Verif.Gen.Proof.SyncGroup
import Verif.Gen.Proof.DescribeGroups
import Verif.Gen.Proof.ListGroups
import Verif.Gen.Proof.SaslHandshake
import Verif.Gen.Proof.ApiVersions
import Verif.Gen.Proof.CreateTopics
import Verif.Gen.Proof.DeleteTopics
import Verif.Gen.Proof.DeleteRecords
import Verif.Gen.Proof.InitProducerId
import Verif.Gen.Proof.OffsetForLeaderEpoch
import Verif.Gen.Proof.AddPartitionsToTxn
import Verif.Gen.Proof.AddOffsetsToTxn
import Verif.Gen.Proof.EndTxn
import Verif.Gen.Proof.WriteTxnMarkers
import Verif.Gen.Proof.TxnOffsetCommit
import Verif.Gen.Proof.DescribeAcls
import Verif.Gen.Proof.CreateAcls
import Verif.Gen.Proof.DeleteAcls
import Verif.Gen.Proof.DescribeConfigs
import Verif.Gen.Proof.AlterConfigs
import Verif.Gen.Proof.AlterReplicaLogDirs
import Verif.Gen.Proof.DescribeLogDirs
import Verif.Gen.Proof.SaslAuthenticate
import Verif.Gen.Proof.CreatePartitions
import Verif.Gen.Proof.CreateDelegationToken
import Verif.Gen.Proof.RenewDelegationToken
import Verif.Gen.Proof.ExpireDelegationToken
import Verif.Gen.Proof.DescribeDelegationToken
import Verif.Gen.Proof.DeleteGroups
import Verif.Gen.Proof.ElectLeaders
import Verif.Gen.Proof.IncrementalAlterConfigs
import Verif.Gen.Proof.AlterPartitionReassignments
import Verif.Gen.Proof.ListPartitionReassignments
import Verif.Gen.Proof.OffsetDelete
/-!
Generated by tools/gen_messages.py: the list of all message types.
-/
namespace Kafka.Msg

/-- The structures of the Produce messages. -/
def typesProduce : List (Σ M : MsgType, Layout M) :=
  [⟨ProduceRequest.type, ProduceRequest.layout⟩,
   ⟨TopicProduceData0.type, TopicProduceData0.layout⟩,
   ⟨PartitionProduceData0.type, PartitionProduceData0.layout⟩,
   ⟨ProduceResponse.type, ProduceResponse.layout⟩,
   ⟨TopicProduceResponse0.type, TopicProduceResponse0.layout⟩,
   ⟨PartitionProduceResponse0.type, PartitionProduceResponse0.layout⟩,
   ⟨BatchIndexAndErrorMessage0.type, BatchIndexAndErrorMessage0.layout⟩]
theorem typesProduce_lawful : ∀ p ∈ typesProduce, Lawful p.1 p.2 := by
  unfold typesProduce
  simp only [List.forall_mem_cons]
  exact ⟨ProduceRequest.lawful, TopicProduceData0.lawful, PartitionProduceData0.lawful, ProduceResponse.lawful, TopicProduceResponse0.lawful, PartitionProduceResponse0.lawful, BatchIndexAndErrorMessage0.lawful, fun _ h => absurd h (by simp)⟩

/-- The structures of the Header messages. -/
def typesHeader : List (Σ M : MsgType, Layout M) :=
  [⟨RequestHeader.type, RequestHeader.layout⟩,
   ⟨ResponseHeader.type, ResponseHeader.layout⟩]
theorem typesHeader_lawful : ∀ p ∈ typesHeader, Lawful p.1 p.2 := by
  unfold typesHeader
  simp only [List.forall_mem_cons]
  exact ⟨RequestHeader.lawful, ResponseHeader.lawful, fun _ h => absurd h (by simp)⟩

/-- The structures of the Fetch messages. -/
def typesFetch : List (Σ M : MsgType, Layout M) :=
  [⟨FetchRequest.type, FetchRequest.layout⟩,
   ⟨FetchableTopic1.type, FetchableTopic1.layout⟩,
   ⟨FetchPartition1.type, FetchPartition1.layout⟩,
   ⟨ForgottenTopic1.type, ForgottenTopic1.layout⟩,
   ⟨FetchResponse.type, FetchResponse.layout⟩,
   ⟨FetchableTopicResponse1.type, FetchableTopicResponse1.layout⟩,
   ⟨FetchablePartitionResponse1.type, FetchablePartitionResponse1.layout⟩,
   ⟨AbortedTransaction1.type, AbortedTransaction1.layout⟩]
theorem typesFetch_lawful : ∀ p ∈ typesFetch, Lawful p.1 p.2 := by
  unfold typesFetch
  simp only [List.forall_mem_cons]
  exact ⟨FetchRequest.lawful, FetchableTopic1.lawful, FetchPartition1.lawful, ForgottenTopic1.lawful, FetchResponse.lawful, FetchableTopicResponse1.lawful, FetchablePartitionResponse1.lawful, AbortedTransaction1.lawful, fun _ h => absurd h (by simp)⟩

/-- The structures of the ListOffset messages. -/
def typesListOffset : List (Σ M : MsgType, Layout M) :=
  [⟨ListOffsetRequest.type, ListOffsetRequest.layout⟩,
   ⟨ListOffsetTopic2.type, ListOffsetTopic2.layout⟩,
   ⟨ListOffsetPartition2.type, ListOffsetPartition2.layout⟩,
   ⟨ListOffsetResponse.type, ListOffsetResponse.layout⟩,
   ⟨ListOffsetTopicResponse2.type, ListOffsetTopicResponse2.layout⟩,
   ⟨ListOffsetPartitionResponse2.type, ListOffsetPartitionResponse2.layout⟩]
theorem typesListOffset_lawful : ∀ p ∈ typesListOffset, Lawful p.1 p.2 := by
  unfold typesListOffset
  simp only [List.forall_mem_cons]
  exact ⟨ListOffsetRequest.lawful, ListOffsetTopic2.lawful, ListOffsetPartition2.lawful, ListOffsetResponse.lawful, ListOffsetTopicResponse2.lawful, ListOffsetPartitionResponse2.lawful, fun _ h => absurd h (by simp)⟩

/-- The structures of the Metadata messages. -/
def typesMetadata : List (Σ M : MsgType, Layout M) :=
  [⟨MetadataRequest.type, MetadataRequest.layout⟩,
   ⟨MetadataRequestTopic3.type, MetadataRequestTopic3.layout⟩,
   ⟨MetadataResponse.type, MetadataResponse.layout⟩,
   ⟨MetadataResponseBroker3.type, MetadataResponseBroker3.layout⟩,
   ⟨MetadataResponseTopic3.type, MetadataResponseTopic3.layout⟩,
   ⟨MetadataResponsePartition3.type, MetadataResponsePartition3.layout⟩]
theorem typesMetadata_lawful : ∀ p ∈ typesMetadata, Lawful p.1 p.2 := by
  unfold typesMetadata
  simp only [List.forall_mem_cons]
  exact ⟨MetadataRequest.lawful, MetadataRequestTopic3.lawful, MetadataResponse.lawful, MetadataResponseBroker3.lawful, MetadataResponseTopic3.lawful, MetadataResponsePartition3.lawful, fun _ h => absurd h (by simp)⟩

/-- The structures of the LeaderAndIsr messages. -/
def typesLeaderAndIsr : List (Σ M : MsgType, Layout M) :=
  [⟨LeaderAndIsrRequest.type, LeaderAndIsrRequest.layout⟩,
   ⟨LeaderAndIsrTopicState4.type, LeaderAndIsrTopicState4.layout⟩,
   ⟨LeaderAndIsrLiveLeader4.type, LeaderAndIsrLiveLeader4.layout⟩,
   ⟨LeaderAndIsrPartitionState4.type, LeaderAndIsrPartitionState4.layout⟩,
   ⟨LeaderAndIsrResponse.type, LeaderAndIsrResponse.layout⟩,
   ⟨LeaderAndIsrPartitionError4.type, LeaderAndIsrPartitionError4.layout⟩]
theorem typesLeaderAndIsr_lawful : ∀ p ∈ typesLeaderAndIsr, Lawful p.1 p.2 := by
  unfold typesLeaderAndIsr
  simp only [List.forall_mem_cons]
  exact ⟨LeaderAndIsrRequest.lawful, LeaderAndIsrTopicState4.lawful, LeaderAndIsrLiveLeader4.lawful, LeaderAndIsrPartitionState4.lawful, LeaderAndIsrResponse.lawful, LeaderAndIsrPartitionError4.lawful, fun _ h => absurd h (by simp)⟩

/-- The structures of the StopReplica messages. -/
def typesStopReplica : List (Σ M : MsgType, Layout M) :=
  [⟨StopReplicaRequest.type, StopReplicaRequest.layout⟩,
   ⟨StopReplicaPartitionV05.type, StopReplicaPartitionV05.layout⟩,
   ⟨StopReplicaTopic5.type, StopReplicaTopic5.layout⟩,
   ⟨StopReplicaResponse.type, StopReplicaResponse.layout⟩,
   ⟨StopReplicaPartitionError5.type, StopReplicaPartitionError5.layout⟩]
theorem typesStopReplica_lawful : ∀ p ∈ typesStopReplica, Lawful p.1 p.2 := by
  unfold typesStopReplica
  simp only [List.forall_mem_cons]
  exact ⟨StopReplicaRequest.lawful, StopReplicaPartitionV05.lawful, StopReplicaTopic5.lawful, StopReplicaResponse.lawful, StopReplicaPartitionError5.lawful, fun _ h => absurd h (by simp)⟩

/-- The structures of the UpdateMetadata messages. -/
def typesUpdateMetadata : List (Σ M : MsgType, Layout M) :=
  [⟨UpdateMetadataRequest.type, UpdateMetadataRequest.layout⟩,
   ⟨UpdateMetadataTopicState6.type, UpdateMetadataTopicState6.layout⟩,
   ⟨UpdateMetadataBroker6.type, UpdateMetadataBroker6.layout⟩,
   ⟨UpdateMetadataEndpoint6.type, UpdateMetadataEndpoint6.layout⟩,
   ⟨UpdateMetadataPartitionState6.type, UpdateMetadataPartitionState6.layout⟩,
   ⟨UpdateMetadataResponse.type, UpdateMetadataResponse.layout⟩]
theorem typesUpdateMetadata_lawful : ∀ p ∈ typesUpdateMetadata, Lawful p.1 p.2 := by
  unfold typesUpdateMetadata
  simp only [List.forall_mem_cons]
  exact ⟨UpdateMetadataRequest.lawful, UpdateMetadataTopicState6.lawful, UpdateMetadataBroker6.lawful, UpdateMetadataEndpoint6.lawful, UpdateMetadataPartitionState6.lawful, UpdateMetadataResponse.lawful, fun _ h => absurd h (by simp)⟩

/-- The structures of the ControlledShutdown messages. -/
def typesControlledShutdown : List (Σ M : MsgType, Layout M) :=
  [⟨ControlledShutdownRequest.type, ControlledShutdownRequest.layout⟩,
   ⟨ControlledShutdownResponse.type, ControlledShutdownResponse.layout⟩,
   ⟨RemainingPartition7.type, RemainingPartition7.layout⟩]
theorem typesControlledShutdown_lawful : ∀ p ∈ typesControlledShutdown, Lawful p.1 p.2 := by
  unfold typesControlledShutdown
  simp only [List.forall_mem_cons]
  exact ⟨ControlledShutdownRequest.lawful, ControlledShutdownResponse.lawful, RemainingPartition7.lawful, fun _ h => absurd h (by simp)⟩

/-- The structures of the OffsetCommit messages. -/
def typesOffsetCommit : List (Σ M : MsgType, Layout M) :=
  [⟨OffsetCommitRequest.type, OffsetCommitRequest.layout⟩,
   ⟨OffsetCommitRequestTopic8.type, OffsetCommitRequestTopic8.layout⟩,
   ⟨OffsetCommitRequestPartition8.type, OffsetCommitRequestPartition8.layout⟩,
   ⟨OffsetCommitResponse.type, OffsetCommitResponse.layout⟩,
   ⟨OffsetCommitResponseTopic8.type, OffsetCommitResponseTopic8.layout⟩,
   ⟨OffsetCommitResponsePartition8.type, OffsetCommitResponsePartition8.layout⟩]
theorem typesOffsetCommit_lawful : ∀ p ∈ typesOffsetCommit, Lawful p.1 p.2 := by
  unfold typesOffsetCommit
  simp only [List.forall_mem_cons]
  exact ⟨OffsetCommitRequest.lawful, OffsetCommitRequestTopic8.lawful, OffsetCommitRequestPartition8.lawful, OffsetCommitResponse.lawful, OffsetCommitResponseTopic8.lawful, OffsetCommitResponsePartition8.lawful, fun _ h => absurd h (by simp)⟩

/-- The structures of the OffsetFetch messages. -/
def typesOffsetFetch : List (Σ M : MsgType, Layout M) :=
  [⟨OffsetFetchRequest.type, OffsetFetchRequest.layout⟩,
   ⟨OffsetFetchRequestTopic9.type, OffsetFetchRequestTopic9.layout⟩,
   ⟨OffsetFetchResponse.type, OffsetFetchResponse.layout⟩,
   ⟨OffsetFetchResponseTopic9.type, OffsetFetchResponseTopic9.layout⟩,
   ⟨OffsetFetchResponsePartition9.type, OffsetFetchResponsePartition9.layout⟩]
theorem typesOffsetFetch_lawful : ∀ p ∈ typesOffsetFetch, Lawful p.1 p.2 := by
  unfold typesOffsetFetch
  simp only [List.forall_mem_cons]
  exact ⟨OffsetFetchRequest.lawful, OffsetFetchRequestTopic9.lawful, OffsetFetchResponse.lawful, OffsetFetchResponseTopic9.lawful, OffsetFetchResponsePartition9.lawful, fun _ h => absurd h (by simp)⟩

/-- The structures of the FindCoordinator messages. -/
def typesFindCoordinator : List (Σ M : MsgType, Layout M) :=
  [⟨FindCoordinatorRequest.type, FindCoordinatorRequest.layout⟩,
   ⟨FindCoordinatorResponse.type, FindCoordinatorResponse.layout⟩]
theorem typesFindCoordinator_lawful : ∀ p ∈ typesFindCoordinator, Lawful p.1 p.2 := by
  unfold typesFindCoordinator
  simp only [List.forall_mem_cons]
  exact ⟨FindCoordinatorRequest.lawful, FindCoordinatorResponse.lawful, fun _ h => absurd h (by simp)⟩

/-- The structures of the JoinGroup messages. -/
def typesJoinGroup : List (Σ M : MsgType, Layout M) :=
  [⟨JoinGroupRequest.type, JoinGroupRequest.layout⟩,
   ⟨JoinGroupRequestProtocol11.type, JoinGroupRequestProtocol11.layout⟩,
   ⟨JoinGroupResponse.type, JoinGroupResponse.layout⟩,
   ⟨JoinGroupResponseMember11.type, JoinGroupResponseMember11.layout⟩]
theorem typesJoinGroup_lawful : ∀ p ∈ typesJoinGroup, Lawful p.1 p.2 := by
  unfold typesJoinGroup
  simp only [List.forall_mem_cons]
  exact ⟨JoinGroupRequest.lawful, JoinGroupRequestProtocol11.lawful, JoinGroupResponse.lawful, JoinGroupResponseMember11.lawful, fun _ h => absurd h (by simp)⟩

/-- The structures of the Heartbeat messages. -/
def typesHeartbeat : List (Σ M : MsgType, Layout M) :=
  [⟨HeartbeatRequest.type, HeartbeatRequest.layout⟩,
   ⟨HeartbeatResponse.type, HeartbeatResponse.layout⟩]
theorem typesHeartbeat_lawful : ∀ p ∈ typesHeartbeat, Lawful p.1 p.2 := by
  unfold typesHeartbeat
  simp only [List.forall_mem_cons]
  exact ⟨HeartbeatRequest.lawful, HeartbeatResponse.lawful, fun _ h => absurd h (by simp)⟩

/-- The structures of the LeaveGroup messages. -/
def typesLeaveGroup : List (Σ M : MsgType, Layout M) :=
  [⟨LeaveGroupRequest.type, LeaveGroupRequest.layout⟩,
   ⟨MemberIdentity13.type, MemberIdentity13.layout⟩,
   ⟨LeaveGroupResponse.type, LeaveGroupResponse.layout⟩,
   ⟨MemberResponse13.type, MemberResponse13.layout⟩]
theorem typesLeaveGroup_lawful : ∀ p ∈ typesLeaveGroup, Lawful p.1 p.2 := by
  unfold typesLeaveGroup
  simp only [List.forall_mem_cons]
  exact ⟨LeaveGroupRequest.lawful, MemberIdentity13.lawful, LeaveGroupResponse.lawful, MemberResponse13.lawful, fun _ h => absurd h (by simp)⟩

/-- The structures of the SyncGroup messages. -/
def typesSyncGroup : List (Σ M : MsgType, Layout M) :=
  [⟨SyncGroupRequest.type, SyncGroupRequest.layout⟩,
   ⟨SyncGroupRequestAssignment14.type, SyncGroupRequestAssignment14.layout⟩,
   ⟨SyncGroupResponse.type, SyncGroupResponse.layout⟩]
theorem typesSyncGroup_lawful : ∀ p ∈ typesSyncGroup, Lawful p.1 p.2 := by
  unfold typesSyncGroup
  simp only [List.forall_mem_cons]
  exact ⟨SyncGroupRequest.lawful, SyncGroupRequestAssignment14.lawful, SyncGroupResponse.lawful, fun _ h => absurd h (by simp)⟩

/-- The structures of the DescribeGroups messages. -/
def typesDescribeGroups : List (Σ M : MsgType, Layout M) :=
  [⟨DescribeGroupsRequest.type, DescribeGroupsRequest.layout⟩,
   ⟨DescribeGroupsResponse.type, DescribeGroupsResponse.layout⟩,
   ⟨DescribedGroup15.type, DescribedGroup15.layout⟩,
   ⟨DescribedGroupMember15.type, DescribedGroupMember15.layout⟩]
theorem typesDescribeGroups_lawful : ∀ p ∈ typesDescribeGroups, Lawful p.1 p.2 := by
  unfold typesDescribeGroups
  simp only [List.forall_mem_cons]
  exact ⟨DescribeGroupsRequest.lawful, DescribeGroupsResponse.lawful, DescribedGroup15.lawful, DescribedGroupMember15.lawful, fun _ h => absurd h (by simp)⟩

/-- The structures of the ListGroups messages. -/
def typesListGroups : List (Σ M : MsgType, Layout M) :=
  [⟨ListGroupsRequest.type, ListGroupsRequest.layout⟩,
   ⟨ListGroupsResponse.type, ListGroupsResponse.layout⟩,
   ⟨ListedGroup16.type, ListedGroup16.layout⟩]
theorem typesListGroups_lawful : ∀ p ∈ typesListGroups, Lawful p.1 p.2 := by
  unfold typesListGroups
  simp only [List.forall_mem_cons]
  exact ⟨ListGroupsRequest.lawful, ListGroupsResponse.lawful, ListedGroup16.lawful, fun _ h => absurd h (by simp)⟩

/-- The structures of the SaslHandshake messages. -/
def typesSaslHandshake : List (Σ M : MsgType, Layout M) :=
  [⟨SaslHandshakeRequest.type, SaslHandshakeRequest.layout⟩,
   ⟨SaslHandshakeResponse.type, SaslHandshakeResponse.layout⟩]
theorem typesSaslHandshake_lawful : ∀ p ∈ typesSaslHandshake, Lawful p.1 p.2 := by
  unfold typesSaslHandshake
  simp only [List.forall_mem_cons]
  exact ⟨SaslHandshakeRequest.lawful, SaslHandshakeResponse.lawful, fun _ h => absurd h (by simp)⟩

/-- The structures of the ApiVersions messages. -/
def typesApiVersions : List (Σ M : MsgType, Layout M) :=
  [⟨ApiVersionsRequest.type, ApiVersionsRequest.layout⟩,
   ⟨ApiVersionsResponse.type, ApiVersionsResponse.layout⟩,
   ⟨ApiVersionsResponseKey18.type, ApiVersionsResponseKey18.layout⟩]
theorem typesApiVersions_lawful : ∀ p ∈ typesApiVersions, Lawful p.1 p.2 := by
  unfold typesApiVersions
  simp only [List.forall_mem_cons]
  exact ⟨ApiVersionsRequest.lawful, ApiVersionsResponse.lawful, ApiVersionsResponseKey18.lawful, fun _ h => absurd h (by simp)⟩

/-- The structures of the CreateTopics messages. -/
def typesCreateTopics : List (Σ M : MsgType, Layout M) :=
  [⟨CreateTopicsRequest.type, CreateTopicsRequest.layout⟩,
   ⟨CreatableTopic19.type, CreatableTopic19.layout⟩,
   ⟨CreatableReplicaAssignment19.type, CreatableReplicaAssignment19.layout⟩,
   ⟨CreateableTopicConfig19.type, CreateableTopicConfig19.layout⟩,
   ⟨CreateTopicsResponse.type, CreateTopicsResponse.layout⟩,
   ⟨CreatableTopicResult19.type, CreatableTopicResult19.layout⟩,
   ⟨CreatableTopicConfigs19.type, CreatableTopicConfigs19.layout⟩]
theorem typesCreateTopics_lawful : ∀ p ∈ typesCreateTopics, Lawful p.1 p.2 := by
  unfold typesCreateTopics
  simp only [List.forall_mem_cons]
  exact ⟨CreateTopicsRequest.lawful, CreatableTopic19.lawful, CreatableReplicaAssignment19.lawful, CreateableTopicConfig19.lawful, CreateTopicsResponse.lawful, CreatableTopicResult19.lawful, CreatableTopicConfigs19.lawful, fun _ h => absurd h (by simp)⟩

/-- The structures of the DeleteTopics messages. -/
def typesDeleteTopics : List (Σ M : MsgType, Layout M) :=
  [⟨DeleteTopicsRequest.type, DeleteTopicsRequest.layout⟩,
   ⟨DeleteTopicsResponse.type, DeleteTopicsResponse.layout⟩,
   ⟨DeletableTopicResult20.type, DeletableTopicResult20.layout⟩]
theorem typesDeleteTopics_lawful : ∀ p ∈ typesDeleteTopics, Lawful p.1 p.2 := by
  unfold typesDeleteTopics
  simp only [List.forall_mem_cons]
  exact ⟨DeleteTopicsRequest.lawful, DeleteTopicsResponse.lawful, DeletableTopicResult20.lawful, fun _ h => absurd h (by simp)⟩

/-- The structures of the DeleteRecords messages. -/
def typesDeleteRecords : List (Σ M : MsgType, Layout M) :=
  [⟨DeleteRecordsRequest.type, DeleteRecordsRequest.layout⟩,
   ⟨DeleteRecordsTopic21.type, DeleteRecordsTopic21.layout⟩,
   ⟨DeleteRecordsPartition21.type, DeleteRecordsPartition21.layout⟩,
   ⟨DeleteRecordsResponse.type, DeleteRecordsResponse.layout⟩,
   ⟨DeleteRecordsTopicResult21.type, DeleteRecordsTopicResult21.layout⟩,
   ⟨DeleteRecordsPartitionResult21.type, DeleteRecordsPartitionResult21.layout⟩]
theorem typesDeleteRecords_lawful : ∀ p ∈ typesDeleteRecords, Lawful p.1 p.2 := by
  unfold typesDeleteRecords
  simp only [List.forall_mem_cons]
  exact ⟨DeleteRecordsRequest.lawful, DeleteRecordsTopic21.lawful, DeleteRecordsPartition21.lawful, DeleteRecordsResponse.lawful, DeleteRecordsTopicResult21.lawful, DeleteRecordsPartitionResult21.lawful, fun _ h => absurd h (by simp)⟩

/-- The structures of the InitProducerId messages. -/
def typesInitProducerId : List (Σ M : MsgType, Layout M) :=
  [⟨InitProducerIdRequest.type, InitProducerIdRequest.layout⟩,
   ⟨InitProducerIdResponse.type, InitProducerIdResponse.layout⟩]
theorem typesInitProducerId_lawful : ∀ p ∈ typesInitProducerId, Lawful p.1 p.2 := by
  unfold typesInitProducerId
  simp only [List.forall_mem_cons]
  exact ⟨InitProducerIdRequest.lawful, InitProducerIdResponse.lawful, fun _ h => absurd h (by simp)⟩

/-- The structures of the OffsetForLeaderEpoch messages. -/
def typesOffsetForLeaderEpoch : List (Σ M : MsgType, Layout M) :=
  [⟨OffsetForLeaderEpochRequest.type, OffsetForLeaderEpochRequest.layout⟩,
   ⟨OffsetForLeaderTopic23.type, OffsetForLeaderTopic23.layout⟩,
   ⟨OffsetForLeaderPartition23.type, OffsetForLeaderPartition23.layout⟩,
   ⟨OffsetForLeaderEpochResponse.type, OffsetForLeaderEpochResponse.layout⟩,
   ⟨OffsetForLeaderTopicResult23.type, OffsetForLeaderTopicResult23.layout⟩,
   ⟨OffsetForLeaderPartitionResult23.type, OffsetForLeaderPartitionResult23.layout⟩]
theorem typesOffsetForLeaderEpoch_lawful : ∀ p ∈ typesOffsetForLeaderEpoch, Lawful p.1 p.2 := by
  unfold typesOffsetForLeaderEpoch
  simp only [List.forall_mem_cons]
  exact ⟨OffsetForLeaderEpochRequest.lawful, OffsetForLeaderTopic23.lawful, OffsetForLeaderPartition23.lawful, OffsetForLeaderEpochResponse.lawful, OffsetForLeaderTopicResult23.lawful, OffsetForLeaderPartitionResult23.lawful, fun _ h => absurd h (by simp)⟩

/-- The structures of the AddPartitionsToTxn messages. -/
def typesAddPartitionsToTxn : List (Σ M : MsgType, Layout M) :=
  [⟨AddPartitionsToTxnRequest.type, AddPartitionsToTxnRequest.layout⟩,
   ⟨AddPartitionsToTxnTopic24.type, AddPartitionsToTxnTopic24.layout⟩,
   ⟨AddPartitionsToTxnResponse.type, AddPartitionsToTxnResponse.layout⟩,
   ⟨AddPartitionsToTxnTopicResult24.type, AddPartitionsToTxnTopicResult24.layout⟩,
   ⟨AddPartitionsToTxnPartitionResult24.type, AddPartitionsToTxnPartitionResult24.layout⟩]
theorem typesAddPartitionsToTxn_lawful : ∀ p ∈ typesAddPartitionsToTxn, Lawful p.1 p.2 := by
  unfold typesAddPartitionsToTxn
  simp only [List.forall_mem_cons]
  exact ⟨AddPartitionsToTxnRequest.lawful, AddPartitionsToTxnTopic24.lawful, AddPartitionsToTxnResponse.lawful, AddPartitionsToTxnTopicResult24.lawful, AddPartitionsToTxnPartitionResult24.lawful, fun _ h => absurd h (by simp)⟩

/-- The structures of the AddOffsetsToTxn messages. -/
def typesAddOffsetsToTxn : List (Σ M : MsgType, Layout M) :=
  [⟨AddOffsetsToTxnRequest.type, AddOffsetsToTxnRequest.layout⟩,
   ⟨AddOffsetsToTxnResponse.type, AddOffsetsToTxnResponse.layout⟩]
theorem typesAddOffsetsToTxn_lawful : ∀ p ∈ typesAddOffsetsToTxn, Lawful p.1 p.2 := by
  unfold typesAddOffsetsToTxn
  simp only [List.forall_mem_cons]
  exact ⟨AddOffsetsToTxnRequest.lawful, AddOffsetsToTxnResponse.lawful, fun _ h => absurd h (by simp)⟩

/-- The structures of the EndTxn messages. -/
def typesEndTxn : List (Σ M : MsgType, Layout M) :=
  [⟨EndTxnRequest.type, EndTxnRequest.layout⟩,
   ⟨EndTxnResponse.type, EndTxnResponse.layout⟩]
theorem typesEndTxn_lawful : ∀ p ∈ typesEndTxn, Lawful p.1 p.2 := by
  unfold typesEndTxn
  simp only [List.forall_mem_cons]
  exact ⟨EndTxnRequest.lawful, EndTxnResponse.lawful, fun _ h => absurd h (by simp)⟩

/-- The structures of the WriteTxnMarkers messages. -/
def typesWriteTxnMarkers : List (Σ M : MsgType, Layout M) :=
  [⟨WriteTxnMarkersRequest.type, WriteTxnMarkersRequest.layout⟩,
   ⟨WritableTxnMarker27.type, WritableTxnMarker27.layout⟩,
   ⟨WritableTxnMarkerTopic27.type, WritableTxnMarkerTopic27.layout⟩,
   ⟨WriteTxnMarkersResponse.type, WriteTxnMarkersResponse.layout⟩,
   ⟨WritableTxnMarkerResult27.type, WritableTxnMarkerResult27.layout⟩,
   ⟨WritableTxnMarkerTopicResult27.type, WritableTxnMarkerTopicResult27.layout⟩,
   ⟨WritableTxnMarkerPartitionResult27.type, WritableTxnMarkerPartitionResult27.layout⟩]
theorem typesWriteTxnMarkers_lawful : ∀ p ∈ typesWriteTxnMarkers, Lawful p.1 p.2 := by
  unfold typesWriteTxnMarkers
  simp only [List.forall_mem_cons]
  exact ⟨WriteTxnMarkersRequest.lawful, WritableTxnMarker27.lawful, WritableTxnMarkerTopic27.lawful, WriteTxnMarkersResponse.lawful, WritableTxnMarkerResult27.lawful, WritableTxnMarkerTopicResult27.lawful, WritableTxnMarkerPartitionResult27.lawful, fun _ h => absurd h (by simp)⟩

/-- The structures of the TxnOffsetCommit messages. -/
def typesTxnOffsetCommit : List (Σ M : MsgType, Layout M) :=
  [⟨TxnOffsetCommitRequest.type, TxnOffsetCommitRequest.layout⟩,
   ⟨TxnOffsetCommitRequestTopic28.type, TxnOffsetCommitRequestTopic28.layout⟩,
   ⟨TxnOffsetCommitRequestPartition28.type, TxnOffsetCommitRequestPartition28.layout⟩,
   ⟨TxnOffsetCommitResponse.type, TxnOffsetCommitResponse.layout⟩,
   ⟨TxnOffsetCommitResponseTopic28.type, TxnOffsetCommitResponseTopic28.layout⟩,
   ⟨TxnOffsetCommitResponsePartition28.type, TxnOffsetCommitResponsePartition28.layout⟩]
theorem typesTxnOffsetCommit_lawful : ∀ p ∈ typesTxnOffsetCommit, Lawful p.1 p.2 := by
  unfold typesTxnOffsetCommit
  simp only [List.forall_mem_cons]
  exact ⟨TxnOffsetCommitRequest.lawful, TxnOffsetCommitRequestTopic28.lawful, TxnOffsetCommitRequestPartition28.lawful, TxnOffsetCommitResponse.lawful, TxnOffsetCommitResponseTopic28.lawful, TxnOffsetCommitResponsePartition28.lawful, fun _ h => absurd h (by simp)⟩

/-- The structures of the DescribeAcls messages. -/
def typesDescribeAcls : List (Σ M : MsgType, Layout M) :=
  [⟨DescribeAclsRequest.type, DescribeAclsRequest.layout⟩,
   ⟨DescribeAclsResponse.type, DescribeAclsResponse.layout⟩,
   ⟨DescribeAclsResource29.type, DescribeAclsResource29.layout⟩,
   ⟨AclDescription29.type, AclDescription29.layout⟩]
theorem typesDescribeAcls_lawful : ∀ p ∈ typesDescribeAcls, Lawful p.1 p.2 := by
  unfold typesDescribeAcls
  simp only [List.forall_mem_cons]
  exact ⟨DescribeAclsRequest.lawful, DescribeAclsResponse.lawful, DescribeAclsResource29.lawful, AclDescription29.lawful, fun _ h => absurd h (by simp)⟩

/-- The structures of the CreateAcls messages. -/
def typesCreateAcls : List (Σ M : MsgType, Layout M) :=
  [⟨CreateAclsRequest.type, CreateAclsRequest.layout⟩,
   ⟨CreatableAcl30.type, CreatableAcl30.layout⟩,
   ⟨CreateAclsResponse.type, CreateAclsResponse.layout⟩,
   ⟨CreatableAclResult30.type, CreatableAclResult30.layout⟩]
theorem typesCreateAcls_lawful : ∀ p ∈ typesCreateAcls, Lawful p.1 p.2 := by
  unfold typesCreateAcls
  simp only [List.forall_mem_cons]
  exact ⟨CreateAclsRequest.lawful, CreatableAcl30.lawful, CreateAclsResponse.lawful, CreatableAclResult30.lawful, fun _ h => absurd h (by simp)⟩

/-- The structures of the DeleteAcls messages. -/
def typesDeleteAcls : List (Σ M : MsgType, Layout M) :=
  [⟨DeleteAclsRequest.type, DeleteAclsRequest.layout⟩,
   ⟨DeleteAclsFilter31.type, DeleteAclsFilter31.layout⟩,
   ⟨DeleteAclsResponse.type, DeleteAclsResponse.layout⟩,
   ⟨DeleteAclsFilterResult31.type, DeleteAclsFilterResult31.layout⟩,
   ⟨DeleteAclsMatchingAcl31.type, DeleteAclsMatchingAcl31.layout⟩]
theorem typesDeleteAcls_lawful : ∀ p ∈ typesDeleteAcls, Lawful p.1 p.2 := by
  unfold typesDeleteAcls
  simp only [List.forall_mem_cons]
  exact ⟨DeleteAclsRequest.lawful, DeleteAclsFilter31.lawful, DeleteAclsResponse.lawful, DeleteAclsFilterResult31.lawful, DeleteAclsMatchingAcl31.lawful, fun _ h => absurd h (by simp)⟩

/-- The structures of the DescribeConfigs messages. -/
def typesDescribeConfigs : List (Σ M : MsgType, Layout M) :=
  [⟨DescribeConfigsRequest.type, DescribeConfigsRequest.layout⟩,
   ⟨DescribeConfigsResource32.type, DescribeConfigsResource32.layout⟩,
   ⟨DescribeConfigsResponse.type, DescribeConfigsResponse.layout⟩,
   ⟨DescribeConfigsResult32.type, DescribeConfigsResult32.layout⟩,
   ⟨DescribeConfigsResourceResult32.type, DescribeConfigsResourceResult32.layout⟩,
   ⟨DescribeConfigsSynonym32.type, DescribeConfigsSynonym32.layout⟩]
theorem typesDescribeConfigs_lawful : ∀ p ∈ typesDescribeConfigs, Lawful p.1 p.2 := by
  unfold typesDescribeConfigs
  simp only [List.forall_mem_cons]
  exact ⟨DescribeConfigsRequest.lawful, DescribeConfigsResource32.lawful, DescribeConfigsResponse.lawful, DescribeConfigsResult32.lawful, DescribeConfigsResourceResult32.lawful, DescribeConfigsSynonym32.lawful, fun _ h => absurd h (by simp)⟩

/-- The structures of the AlterConfigs messages. -/
def typesAlterConfigs : List (Σ M : MsgType, Layout M) :=
  [⟨AlterConfigsRequest.type, AlterConfigsRequest.layout⟩,
   ⟨AlterConfigsResource33.type, AlterConfigsResource33.layout⟩,
   ⟨AlterableConfig33.type, AlterableConfig33.layout⟩,
   ⟨AlterConfigsResponse.type, AlterConfigsResponse.layout⟩,
   ⟨AlterConfigsResourceResponse33.type, AlterConfigsResourceResponse33.layout⟩]
theorem typesAlterConfigs_lawful : ∀ p ∈ typesAlterConfigs, Lawful p.1 p.2 := by
  unfold typesAlterConfigs
  simp only [List.forall_mem_cons]
  exact ⟨AlterConfigsRequest.lawful, AlterConfigsResource33.lawful, AlterableConfig33.lawful, AlterConfigsResponse.lawful, AlterConfigsResourceResponse33.lawful, fun _ h => absurd h (by simp)⟩

/-- The structures of the AlterReplicaLogDirs messages. -/
def typesAlterReplicaLogDirs : List (Σ M : MsgType, Layout M) :=
  [⟨AlterReplicaLogDirsRequest.type, AlterReplicaLogDirsRequest.layout⟩,
   ⟨AlterReplicaLogDir34.type, AlterReplicaLogDir34.layout⟩,
   ⟨AlterReplicaLogDirTopic34.type, AlterReplicaLogDirTopic34.layout⟩,
   ⟨AlterReplicaLogDirsResponse.type, AlterReplicaLogDirsResponse.layout⟩,
   ⟨AlterReplicaLogDirTopicResult34.type, AlterReplicaLogDirTopicResult34.layout⟩,
   ⟨AlterReplicaLogDirPartitionResult34.type, AlterReplicaLogDirPartitionResult34.layout⟩]
theorem typesAlterReplicaLogDirs_lawful : ∀ p ∈ typesAlterReplicaLogDirs, Lawful p.1 p.2 := by
  unfold typesAlterReplicaLogDirs
  simp only [List.forall_mem_cons]
  exact ⟨AlterReplicaLogDirsRequest.lawful, AlterReplicaLogDir34.lawful, AlterReplicaLogDirTopic34.lawful, AlterReplicaLogDirsResponse.lawful, AlterReplicaLogDirTopicResult34.lawful, AlterReplicaLogDirPartitionResult34.lawful, fun _ h => absurd h (by simp)⟩

/-- The structures of the DescribeLogDirs messages. -/
def typesDescribeLogDirs : List (Σ M : MsgType, Layout M) :=
  [⟨DescribeLogDirsRequest.type, DescribeLogDirsRequest.layout⟩,
   ⟨DescribableLogDirTopic35.type, DescribableLogDirTopic35.layout⟩,
   ⟨DescribeLogDirsResponse.type, DescribeLogDirsResponse.layout⟩,
   ⟨DescribeLogDirsResult35.type, DescribeLogDirsResult35.layout⟩,
   ⟨DescribeLogDirsTopic35.type, DescribeLogDirsTopic35.layout⟩,
   ⟨DescribeLogDirsPartition35.type, DescribeLogDirsPartition35.layout⟩]
theorem typesDescribeLogDirs_lawful : ∀ p ∈ typesDescribeLogDirs, Lawful p.1 p.2 := by
  unfold typesDescribeLogDirs
  simp only [List.forall_mem_cons]
  exact ⟨DescribeLogDirsRequest.lawful, DescribableLogDirTopic35.lawful, DescribeLogDirsResponse.lawful, DescribeLogDirsResult35.lawful, DescribeLogDirsTopic35.lawful, DescribeLogDirsPartition35.lawful, fun _ h => absurd h (by simp)⟩

/-- The structures of the SaslAuthenticate messages. -/
def typesSaslAuthenticate : List (Σ M : MsgType, Layout M) :=
  [⟨SaslAuthenticateRequest.type, SaslAuthenticateRequest.layout⟩,
   ⟨SaslAuthenticateResponse.type, SaslAuthenticateResponse.layout⟩]
theorem typesSaslAuthenticate_lawful : ∀ p ∈ typesSaslAuthenticate, Lawful p.1 p.2 := by
  unfold typesSaslAuthenticate
  simp only [List.forall_mem_cons]
  exact ⟨SaslAuthenticateRequest.lawful, SaslAuthenticateResponse.lawful, fun _ h => absurd h (by simp)⟩

/-- The structures of the CreatePartitions messages. -/
def typesCreatePartitions : List (Σ M : MsgType, Layout M) :=
  [⟨CreatePartitionsRequest.type, CreatePartitionsRequest.layout⟩,
   ⟨CreatePartitionsTopic37.type, CreatePartitionsTopic37.layout⟩,
   ⟨CreatePartitionsAssignment37.type, CreatePartitionsAssignment37.layout⟩,
   ⟨CreatePartitionsResponse.type, CreatePartitionsResponse.layout⟩,
   ⟨CreatePartitionsTopicResult37.type, CreatePartitionsTopicResult37.layout⟩]
theorem typesCreatePartitions_lawful : ∀ p ∈ typesCreatePartitions, Lawful p.1 p.2 := by
  unfold typesCreatePartitions
  simp only [List.forall_mem_cons]
  exact ⟨CreatePartitionsRequest.lawful, CreatePartitionsTopic37.lawful, CreatePartitionsAssignment37.lawful, CreatePartitionsResponse.lawful, CreatePartitionsTopicResult37.lawful, fun _ h => absurd h (by simp)⟩

/-- The structures of the CreateDelegationToken messages. -/
def typesCreateDelegationToken : List (Σ M : MsgType, Layout M) :=
  [⟨CreateDelegationTokenRequest.type, CreateDelegationTokenRequest.layout⟩,
   ⟨CreatableRenewers38.type, CreatableRenewers38.layout⟩,
   ⟨CreateDelegationTokenResponse.type, CreateDelegationTokenResponse.layout⟩]
theorem typesCreateDelegationToken_lawful : ∀ p ∈ typesCreateDelegationToken, Lawful p.1 p.2 := by
  unfold typesCreateDelegationToken
  simp only [List.forall_mem_cons]
  exact ⟨CreateDelegationTokenRequest.lawful, CreatableRenewers38.lawful, CreateDelegationTokenResponse.lawful, fun _ h => absurd h (by simp)⟩

/-- The structures of the RenewDelegationToken messages. -/
def typesRenewDelegationToken : List (Σ M : MsgType, Layout M) :=
  [⟨RenewDelegationTokenRequest.type, RenewDelegationTokenRequest.layout⟩,
   ⟨RenewDelegationTokenResponse.type, RenewDelegationTokenResponse.layout⟩]
theorem typesRenewDelegationToken_lawful : ∀ p ∈ typesRenewDelegationToken, Lawful p.1 p.2 := by
  unfold typesRenewDelegationToken
  simp only [List.forall_mem_cons]
  exact ⟨RenewDelegationTokenRequest.lawful, RenewDelegationTokenResponse.lawful, fun _ h => absurd h (by simp)⟩

/-- The structures of the ExpireDelegationToken messages. -/
def typesExpireDelegationToken : List (Σ M : MsgType, Layout M) :=
  [⟨ExpireDelegationTokenRequest.type, ExpireDelegationTokenRequest.layout⟩,
   ⟨ExpireDelegationTokenResponse.type, ExpireDelegationTokenResponse.layout⟩]
theorem typesExpireDelegationToken_lawful : ∀ p ∈ typesExpireDelegationToken, Lawful p.1 p.2 := by
  unfold typesExpireDelegationToken
  simp only [List.forall_mem_cons]
  exact ⟨ExpireDelegationTokenRequest.lawful, ExpireDelegationTokenResponse.lawful, fun _ h => absurd h (by simp)⟩

/-- The structures of the DescribeDelegationToken messages. -/
def typesDescribeDelegationToken : List (Σ M : MsgType, Layout M) :=
  [⟨DescribeDelegationTokenRequest.type, DescribeDelegationTokenRequest.layout⟩,
   ⟨DescribeDelegationTokenOwner41.type, DescribeDelegationTokenOwner41.layout⟩,
   ⟨DescribeDelegationTokenResponse.type, DescribeDelegationTokenResponse.layout⟩,
   ⟨DescribedDelegationToken41.type, DescribedDelegationToken41.layout⟩,
   ⟨DescribedDelegationTokenRenewer41.type, DescribedDelegationTokenRenewer41.layout⟩]
theorem typesDescribeDelegationToken_lawful : ∀ p ∈ typesDescribeDelegationToken, Lawful p.1 p.2 := by
  unfold typesDescribeDelegationToken
  simp only [List.forall_mem_cons]
  exact ⟨DescribeDelegationTokenRequest.lawful, DescribeDelegationTokenOwner41.lawful, DescribeDelegationTokenResponse.lawful, DescribedDelegationToken41.lawful, DescribedDelegationTokenRenewer41.lawful, fun _ h => absurd h (by simp)⟩

/-- The structures of the DeleteGroups messages. -/
def typesDeleteGroups : List (Σ M : MsgType, Layout M) :=
  [⟨DeleteGroupsRequest.type, DeleteGroupsRequest.layout⟩,
   ⟨DeleteGroupsResponse.type, DeleteGroupsResponse.layout⟩,
   ⟨DeletableGroupResult42.type, DeletableGroupResult42.layout⟩]
theorem typesDeleteGroups_lawful : ∀ p ∈ typesDeleteGroups, Lawful p.1 p.2 := by
  unfold typesDeleteGroups
  simp only [List.forall_mem_cons]
  exact ⟨DeleteGroupsRequest.lawful, DeleteGroupsResponse.lawful, DeletableGroupResult42.lawful, fun _ h => absurd h (by simp)⟩

/-- The structures of the ElectLeaders messages. -/
def typesElectLeaders : List (Σ M : MsgType, Layout M) :=
  [⟨ElectLeadersRequest.type, ElectLeadersRequest.layout⟩,
   ⟨TopicPartitions43.type, TopicPartitions43.layout⟩,
   ⟨ElectLeadersResponse.type, ElectLeadersResponse.layout⟩,
   ⟨ReplicaElectionResult43.type, ReplicaElectionResult43.layout⟩,
   ⟨PartitionResult43.type, PartitionResult43.layout⟩]
theorem typesElectLeaders_lawful : ∀ p ∈ typesElectLeaders, Lawful p.1 p.2 := by
  unfold typesElectLeaders
  simp only [List.forall_mem_cons]
  exact ⟨ElectLeadersRequest.lawful, TopicPartitions43.lawful, ElectLeadersResponse.lawful, ReplicaElectionResult43.lawful, PartitionResult43.lawful, fun _ h => absurd h (by simp)⟩

/-- The structures of the IncrementalAlterConfigs messages. -/
def typesIncrementalAlterConfigs : List (Σ M : MsgType, Layout M) :=
  [⟨IncrementalAlterConfigsRequest.type, IncrementalAlterConfigsRequest.layout⟩,
   ⟨AlterConfigsResource44.type, AlterConfigsResource44.layout⟩,
   ⟨AlterableConfig44.type, AlterableConfig44.layout⟩,
   ⟨IncrementalAlterConfigsResponse.type, IncrementalAlterConfigsResponse.layout⟩,
   ⟨AlterConfigsResourceResponse44.type, AlterConfigsResourceResponse44.layout⟩]
theorem typesIncrementalAlterConfigs_lawful : ∀ p ∈ typesIncrementalAlterConfigs, Lawful p.1 p.2 := by
  unfold typesIncrementalAlterConfigs
  simp only [List.forall_mem_cons]
  exact ⟨IncrementalAlterConfigsRequest.lawful, AlterConfigsResource44.lawful, AlterableConfig44.lawful, IncrementalAlterConfigsResponse.lawful, AlterConfigsResourceResponse44.lawful, fun _ h => absurd h (by simp)⟩

/-- The structures of the AlterPartitionReassignments messages. -/
def typesAlterPartitionReassignments : List (Σ M : MsgType, Layout M) :=
  [⟨AlterPartitionReassignmentsRequest.type, AlterPartitionReassignmentsRequest.layout⟩,
   ⟨ReassignableTopic45.type, ReassignableTopic45.layout⟩,
   ⟨ReassignablePartition45.type, ReassignablePartition45.layout⟩,
   ⟨AlterPartitionReassignmentsResponse.type, AlterPartitionReassignmentsResponse.layout⟩,
   ⟨ReassignableTopicResponse45.type, ReassignableTopicResponse45.layout⟩,
   ⟨ReassignablePartitionResponse45.type, ReassignablePartitionResponse45.layout⟩]
theorem typesAlterPartitionReassignments_lawful : ∀ p ∈ typesAlterPartitionReassignments, Lawful p.1 p.2 := by
  unfold typesAlterPartitionReassignments
  simp only [List.forall_mem_cons]
  exact ⟨AlterPartitionReassignmentsRequest.lawful, ReassignableTopic45.lawful, ReassignablePartition45.lawful, AlterPartitionReassignmentsResponse.lawful, ReassignableTopicResponse45.lawful, ReassignablePartitionResponse45.lawful, fun _ h => absurd h (by simp)⟩

/-- The structures of the ListPartitionReassignments messages. -/
def typesListPartitionReassignments : List (Σ M : MsgType, Layout M) :=
  [⟨ListPartitionReassignmentsRequest.type, ListPartitionReassignmentsRequest.layout⟩,
   ⟨ListPartitionReassignmentsTopics46.type, ListPartitionReassignmentsTopics46.layout⟩,
   ⟨ListPartitionReassignmentsResponse.type, ListPartitionReassignmentsResponse.layout⟩,
   ⟨OngoingTopicReassignment46.type, OngoingTopicReassignment46.layout⟩,
   ⟨OngoingPartitionReassignment46.type, OngoingPartitionReassignment46.layout⟩]
theorem typesListPartitionReassignments_lawful : ∀ p ∈ typesListPartitionReassignments, Lawful p.1 p.2 := by
  unfold typesListPartitionReassignments
  simp only [List.forall_mem_cons]
  exact ⟨ListPartitionReassignmentsRequest.lawful, ListPartitionReassignmentsTopics46.lawful, ListPartitionReassignmentsResponse.lawful, OngoingTopicReassignment46.lawful, OngoingPartitionReassignment46.lawful, fun _ h => absurd h (by simp)⟩

/-- The structures of the OffsetDelete messages. -/
def typesOffsetDelete : List (Σ M : MsgType, Layout M) :=
  [⟨OffsetDeleteRequest.type, OffsetDeleteRequest.layout⟩,
   ⟨OffsetDeleteRequestTopic47.type, OffsetDeleteRequestTopic47.layout⟩,
   ⟨OffsetDeleteRequestPartition47.type, OffsetDeleteRequestPartition47.layout⟩,
   ⟨OffsetDeleteResponse.type, OffsetDeleteResponse.layout⟩,
   ⟨OffsetDeleteResponseTopic47.type, OffsetDeleteResponseTopic47.layout⟩,
   ⟨OffsetDeleteResponsePartition47.type, OffsetDeleteResponsePartition47.layout⟩]
theorem typesOffsetDelete_lawful : ∀ p ∈ typesOffsetDelete, Lawful p.1 p.2 := by
  unfold typesOffsetDelete
  simp only [List.forall_mem_cons]
  exact ⟨OffsetDeleteRequest.lawful, OffsetDeleteRequestTopic47.lawful, OffsetDeleteRequestPartition47.lawful, OffsetDeleteResponse.lawful, OffsetDeleteResponseTopic47.lawful, OffsetDeleteResponsePartition47.lawful, fun _ h => absurd h (by simp)⟩

/-- All message types by API. -/
def byApi : List (List (Σ M : MsgType, Layout M)) :=
  [typesProduce, typesHeader, typesFetch, typesListOffset, typesMetadata, typesLeaderAndIsr, typesStopReplica, typesUpdateMetadata, typesControlledShutdown, typesOffsetCommit, typesOffsetFetch, typesFindCoordinator, typesJoinGroup, typesHeartbeat, typesLeaveGroup, typesSyncGroup, typesDescribeGroups, typesListGroups, typesSaslHandshake, typesApiVersions, typesCreateTopics, typesDeleteTopics, typesDeleteRecords, typesInitProducerId, typesOffsetForLeaderEpoch, typesAddPartitionsToTxn, typesAddOffsetsToTxn, typesEndTxn, typesWriteTxnMarkers, typesTxnOffsetCommit, typesDescribeAcls, typesCreateAcls, typesDeleteAcls, typesDescribeConfigs, typesAlterConfigs, typesAlterReplicaLogDirs, typesDescribeLogDirs, typesSaslAuthenticate, typesCreatePartitions, typesCreateDelegationToken, typesRenewDelegationToken, typesExpireDelegationToken, typesDescribeDelegationToken, typesDeleteGroups, typesElectLeaders, typesIncrementalAlterConfigs, typesAlterPartitionReassignments, typesListPartitionReassignments, typesOffsetDelete]

/-- The 218 structures of message/messages.gen.go, in the order of the file. -/
def all : List (Σ M : MsgType, Layout M) := byApi.flatten

set_option maxRecDepth 4000 in
theorem all_length : all.length = 218 := rfl

theorem all_lawful : ∀ p ∈ all, Lawful p.1 p.2 := by
  suffices h : ∀ l ∈ byApi, ∀ p ∈ l, Lawful p.1 p.2 by
    intro p hp
    obtain ⟨l, hl, hp⟩ := List.mem_flatten.1 hp
    exact h l hl p hp
  unfold byApi
  simp only [List.forall_mem_cons]
  exact ⟨typesProduce_lawful,
    typesHeader_lawful,
    typesFetch_lawful,
    typesListOffset_lawful,
    typesMetadata_lawful,
    typesLeaderAndIsr_lawful,
    typesStopReplica_lawful,
    typesUpdateMetadata_lawful,
    typesControlledShutdown_lawful,
    typesOffsetCommit_lawful,
    typesOffsetFetch_lawful,
    typesFindCoordinator_lawful,
    typesJoinGroup_lawful,
    typesHeartbeat_lawful,
    typesLeaveGroup_lawful,
    typesSyncGroup_lawful,
    typesDescribeGroups_lawful,
    typesListGroups_lawful,
    typesSaslHandshake_lawful,
    typesApiVersions_lawful,
    typesCreateTopics_lawful,
    typesDeleteTopics_lawful,
    typesDeleteRecords_lawful,
    typesInitProducerId_lawful,
    typesOffsetForLeaderEpoch_lawful,
    typesAddPartitionsToTxn_lawful,
    typesAddOffsetsToTxn_lawful,
    typesEndTxn_lawful,
    typesWriteTxnMarkers_lawful,
    typesTxnOffsetCommit_lawful,
    typesDescribeAcls_lawful,
    typesCreateAcls_lawful,
    typesDeleteAcls_lawful,
    typesDescribeConfigs_lawful,
    typesAlterConfigs_lawful,
    typesAlterReplicaLogDirs_lawful,
    typesDescribeLogDirs_lawful,
    typesSaslAuthenticate_lawful,
    typesCreatePartitions_lawful,
    typesCreateDelegationToken_lawful,
    typesRenewDelegationToken_lawful,
    typesExpireDelegationToken_lawful,
    typesDescribeDelegationToken_lawful,
    typesDeleteGroups_lawful,
    typesElectLeaders_lawful,
    typesIncrementalAlterConfigs_lawful,
    typesAlterPartitionReassignments_lawful,
    typesListPartitionReassignments_lawful,
    typesOffsetDelete_lawful,
    fun _ h => absurd h (by simp)⟩

end Kafka.Msg
