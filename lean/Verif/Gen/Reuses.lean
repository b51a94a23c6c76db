import Verif.Gen.Reuse.Produce
import Verif.Gen.Reuse.Header
import Verif.Gen.Reuse.Fetch
import Verif.Gen.Reuse.ListOffset
import Verif.Gen.Reuse.Metadata
import Verif.Gen.Reuse.LeaderAndIsr
import Verif.Gen.Reuse.StopReplica
import Verif.Gen.Reuse.UpdateMetadata
import Verif.Gen.Reuse.ControlledShutdown
import Verif.Gen.Reuse.OffsetCommit
import Verif.Gen.Reuse.OffsetFetch
import Verif.Gen.Reuse.FindCoordinator
import Verif.Gen.Reuse.JoinGroup
import Verif.Gen.Reuse.Heartbeat
import Verif.Gen.Reuse.LeaveGroup
import Verif.Gen.Reuse.SyncGroup
import Verif.Gen.Reuse.DescribeGroups
import Verif.Gen.Reuse.ListGroups
import Verif.Gen.Reuse.SaslHandshake
import Verif.Gen.Reuse.ApiVersions
import Verif.Gen.Reuse.CreateTopics
import Verif.Gen.Reuse.DeleteTopics
import Verif.Gen.Reuse.DeleteRecords
import Verif.Gen.Reuse.InitProducerId
import Verif.Gen.Reuse.OffsetForLeaderEpoch
import Verif.Gen.Reuse.AddPartitionsToTxn
import Verif.Gen.Reuse.AddOffsetsToTxn
import Verif.Gen.Reuse.EndTxn
import Verif.Gen.Reuse.WriteTxnMarkers
import Verif.Gen.Reuse.TxnOffsetCommit
import Verif.Gen.Reuse.DescribeAcls
import Verif.Gen.Reuse.CreateAcls
import Verif.Gen.Reuse.DeleteAcls
import Verif.Gen.Reuse.DescribeConfigs
import Verif.Gen.Reuse.AlterConfigs
import Verif.Gen.Reuse.AlterReplicaLogDirs
import Verif.Gen.Reuse.DescribeLogDirs
import Verif.Gen.Reuse.SaslAuthenticate
import Verif.Gen.Reuse.CreatePartitions
import Verif.Gen.Reuse.CreateDelegationToken
import Verif.Gen.Reuse.RenewDelegationToken
import Verif.Gen.Reuse.ExpireDelegationToken
import Verif.Gen.Reuse.DescribeDelegationToken
import Verif.Gen.Reuse.DeleteGroups
import Verif.Gen.Reuse.ElectLeaders
import Verif.Gen.Reuse.IncrementalAlterConfigs
import Verif.Gen.Reuse.AlterPartitionReassignments
import Verif.Gen.Reuse.ListPartitionReassignments
import Verif.Gen.Reuse.OffsetDelete
import Verif.Gen.All
/-!
Generated by tools/gen_messages.py: decoding into messages used before, all types.
-/
namespace Kafka.Msg

/-- By API. -/
def reusesByApi : List (List (Σ (M : MsgType) (_ : Layout M), Reuse M)) :=
  [reuseProduce, reuseHeader, reuseFetch, reuseListOffset, reuseMetadata, reuseLeaderAndIsr, reuseStopReplica, reuseUpdateMetadata, reuseControlledShutdown, reuseOffsetCommit, reuseOffsetFetch, reuseFindCoordinator, reuseJoinGroup, reuseHeartbeat, reuseLeaveGroup, reuseSyncGroup, reuseDescribeGroups, reuseListGroups, reuseSaslHandshake, reuseApiVersions, reuseCreateTopics, reuseDeleteTopics, reuseDeleteRecords, reuseInitProducerId, reuseOffsetForLeaderEpoch, reuseAddPartitionsToTxn, reuseAddOffsetsToTxn, reuseEndTxn, reuseWriteTxnMarkers, reuseTxnOffsetCommit, reuseDescribeAcls, reuseCreateAcls, reuseDeleteAcls, reuseDescribeConfigs, reuseAlterConfigs, reuseAlterReplicaLogDirs, reuseDescribeLogDirs, reuseSaslAuthenticate, reuseCreatePartitions, reuseCreateDelegationToken, reuseRenewDelegationToken, reuseExpireDelegationToken, reuseDescribeDelegationToken, reuseDeleteGroups, reuseElectLeaders, reuseIncrementalAlterConfigs, reuseAlterPartitionReassignments, reuseListPartitionReassignments, reuseOffsetDelete]

/-- All message types. -/
def reuses : List (Σ (M : MsgType) (_ : Layout M), Reuse M) := reusesByApi.flatten

set_option maxRecDepth 4000 in
/-- They are the ones of `all`. -/
theorem reuses_all : reuses.map (fun p => (⟨p.1, p.2.1⟩ : Σ M : MsgType, Layout M)) = all := rfl

theorem reuses_hold : ∀ p ∈ reuses, p.2.2.Holds p.2.1 := by
  suffices h : ∀ l ∈ reusesByApi, ∀ p ∈ l, p.2.2.Holds p.2.1 by
    intro p hp
    obtain ⟨l, hl, hp⟩ := List.mem_flatten.1 hp
    exact h l hl p hp
  unfold reusesByApi
  simp only [List.forall_mem_cons]
  exact ⟨reuseProduce_holds,
    reuseHeader_holds,
    reuseFetch_holds,
    reuseListOffset_holds,
    reuseMetadata_holds,
    reuseLeaderAndIsr_holds,
    reuseStopReplica_holds,
    reuseUpdateMetadata_holds,
    reuseControlledShutdown_holds,
    reuseOffsetCommit_holds,
    reuseOffsetFetch_holds,
    reuseFindCoordinator_holds,
    reuseJoinGroup_holds,
    reuseHeartbeat_holds,
    reuseLeaveGroup_holds,
    reuseSyncGroup_holds,
    reuseDescribeGroups_holds,
    reuseListGroups_holds,
    reuseSaslHandshake_holds,
    reuseApiVersions_holds,
    reuseCreateTopics_holds,
    reuseDeleteTopics_holds,
    reuseDeleteRecords_holds,
    reuseInitProducerId_holds,
    reuseOffsetForLeaderEpoch_holds,
    reuseAddPartitionsToTxn_holds,
    reuseAddOffsetsToTxn_holds,
    reuseEndTxn_holds,
    reuseWriteTxnMarkers_holds,
    reuseTxnOffsetCommit_holds,
    reuseDescribeAcls_holds,
    reuseCreateAcls_holds,
    reuseDeleteAcls_holds,
    reuseDescribeConfigs_holds,
    reuseAlterConfigs_holds,
    reuseAlterReplicaLogDirs_holds,
    reuseDescribeLogDirs_holds,
    reuseSaslAuthenticate_holds,
    reuseCreatePartitions_holds,
    reuseCreateDelegationToken_holds,
    reuseRenewDelegationToken_holds,
    reuseExpireDelegationToken_holds,
    reuseDescribeDelegationToken_holds,
    reuseDeleteGroups_holds,
    reuseElectLeaders_holds,
    reuseIncrementalAlterConfigs_holds,
    reuseAlterPartitionReassignments_holds,
    reuseListPartitionReassignments_holds,
    reuseOffsetDelete_holds,
    fun _ h => absurd h (by simp)⟩

end Kafka.Msg
