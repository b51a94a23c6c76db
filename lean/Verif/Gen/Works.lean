import Verif.Gen.Work.Produce
import Verif.Gen.Work.Header
import Verif.Gen.Work.Fetch
import Verif.Gen.Work.ListOffset
import Verif.Gen.Work.Metadata
import Verif.Gen.Work.LeaderAndIsr
import Verif.Gen.Work.StopReplica
import Verif.Gen.Work.UpdateMetadata
import Verif.Gen.Work.ControlledShutdown
import Verif.Gen.Work.OffsetCommit
import Verif.Gen.Work.OffsetFetch
import Verif.Gen.Work.FindCoordinator
import Verif.Gen.Work.JoinGroup
import Verif.Gen.Work.Heartbeat
import Verif.Gen.Work.LeaveGroup
import Verif.Gen.Work.SyncGroup
import Verif.Gen.Work.DescribeGroups
import Verif.Gen.Work.ListGroups
import Verif.Gen.Work.SaslHandshake
import Verif.Gen.Work.ApiVersions
import Verif.Gen.Work.CreateTopics
import Verif.Gen.Work.DeleteTopics
import Verif.Gen.Work.DeleteRecords
import Verif.Gen.Work.InitProducerId
import Verif.Gen.Work.OffsetForLeaderEpoch
import Verif.Gen.Work.AddPartitionsToTxn
import Verif.Gen.Work.AddOffsetsToTxn
import Verif.Gen.Work.EndTxn
import Verif.Gen.Work.WriteTxnMarkers
import Verif.Gen.Work.TxnOffsetCommit
import Verif.Gen.Work.DescribeAcls
import Verif.Gen.Work.CreateAcls
import Verif.Gen.Work.DeleteAcls
import Verif.Gen.Work.DescribeConfigs
import Verif.Gen.Work.AlterConfigs
import Verif.Gen.Work.AlterReplicaLogDirs
import Verif.Gen.Work.DescribeLogDirs
import Verif.Gen.Work.SaslAuthenticate
import Verif.Gen.Work.CreatePartitions
import Verif.Gen.Work.CreateDelegationToken
import Verif.Gen.Work.RenewDelegationToken
import Verif.Gen.Work.ExpireDelegationToken
import Verif.Gen.Work.DescribeDelegationToken
import Verif.Gen.Work.DeleteGroups
import Verif.Gen.Work.ElectLeaders
import Verif.Gen.Work.IncrementalAlterConfigs
import Verif.Gen.Work.AlterPartitionReassignments
import Verif.Gen.Work.ListPartitionReassignments
import Verif.Gen.Work.OffsetDelete
import Verif.Gen.All
/-!
Generated by tools/gen_messages.py: steps taken by decoding, all types.
-/
namespace Kafka.Msg

/-- By API. -/
def worksByApi : List (List (Σ M : MsgType, Int16 → M.T → ADec M.T)) :=
  [workProduce, workHeader, workFetch, workListOffset, workMetadata, workLeaderAndIsr, workStopReplica, workUpdateMetadata, workControlledShutdown, workOffsetCommit, workOffsetFetch, workFindCoordinator, workJoinGroup, workHeartbeat, workLeaveGroup, workSyncGroup, workDescribeGroups, workListGroups, workSaslHandshake, workApiVersions, workCreateTopics, workDeleteTopics, workDeleteRecords, workInitProducerId, workOffsetForLeaderEpoch, workAddPartitionsToTxn, workAddOffsetsToTxn, workEndTxn, workWriteTxnMarkers, workTxnOffsetCommit, workDescribeAcls, workCreateAcls, workDeleteAcls, workDescribeConfigs, workAlterConfigs, workAlterReplicaLogDirs, workDescribeLogDirs, workSaslAuthenticate, workCreatePartitions, workCreateDelegationToken, workRenewDelegationToken, workExpireDelegationToken, workDescribeDelegationToken, workDeleteGroups, workElectLeaders, workIncrementalAlterConfigs, workAlterPartitionReassignments, workListPartitionReassignments, workOffsetDelete]

/-- All message types. -/
def works : List (Σ M : MsgType, Int16 → M.T → ADec M.T) := worksByApi.flatten

set_option maxRecDepth 4000 in
/-- They are the ones of `all`. -/
theorem works_all : works.map (·.1) = all.map (·.1) := rfl

theorem works_erases : ∀ p ∈ works, ∀ v t, Erases (p.2 v t) (p.1.decode v t) := by
  suffices h : ∀ l ∈ worksByApi, ∀ p ∈ l, ∀ v t, Erases (p.2 v t) (p.1.decode v t) by
    intro p hp
    obtain ⟨l, hl, hp⟩ := List.mem_flatten.1 hp
    exact h l hl p hp
  unfold worksByApi
  simp only [List.forall_mem_cons]
  exact ⟨workProduce_erases,
    workHeader_erases,
    workFetch_erases,
    workListOffset_erases,
    workMetadata_erases,
    workLeaderAndIsr_erases,
    workStopReplica_erases,
    workUpdateMetadata_erases,
    workControlledShutdown_erases,
    workOffsetCommit_erases,
    workOffsetFetch_erases,
    workFindCoordinator_erases,
    workJoinGroup_erases,
    workHeartbeat_erases,
    workLeaveGroup_erases,
    workSyncGroup_erases,
    workDescribeGroups_erases,
    workListGroups_erases,
    workSaslHandshake_erases,
    workApiVersions_erases,
    workCreateTopics_erases,
    workDeleteTopics_erases,
    workDeleteRecords_erases,
    workInitProducerId_erases,
    workOffsetForLeaderEpoch_erases,
    workAddPartitionsToTxn_erases,
    workAddOffsetsToTxn_erases,
    workEndTxn_erases,
    workWriteTxnMarkers_erases,
    workTxnOffsetCommit_erases,
    workDescribeAcls_erases,
    workCreateAcls_erases,
    workDeleteAcls_erases,
    workDescribeConfigs_erases,
    workAlterConfigs_erases,
    workAlterReplicaLogDirs_erases,
    workDescribeLogDirs_erases,
    workSaslAuthenticate_erases,
    workCreatePartitions_erases,
    workCreateDelegationToken_erases,
    workRenewDelegationToken_erases,
    workExpireDelegationToken_erases,
    workDescribeDelegationToken_erases,
    workDeleteGroups_erases,
    workElectLeaders_erases,
    workIncrementalAlterConfigs_erases,
    workAlterPartitionReassignments_erases,
    workListPartitionReassignments_erases,
    workOffsetDelete_erases,
    fun _ h => absurd h (by simp)⟩

theorem works_spends : ∀ p ∈ works, ∀ v t, Spends (p.2 v t) 0 1 := by
  suffices h : ∀ l ∈ worksByApi, ∀ p ∈ l, ∀ v t, Spends (p.2 v t) 0 1 by
    intro p hp
    obtain ⟨l, hl, hp⟩ := List.mem_flatten.1 hp
    exact h l hl p hp
  unfold worksByApi
  simp only [List.forall_mem_cons]
  exact ⟨workProduce_spends,
    workHeader_spends,
    workFetch_spends,
    workListOffset_spends,
    workMetadata_spends,
    workLeaderAndIsr_spends,
    workStopReplica_spends,
    workUpdateMetadata_spends,
    workControlledShutdown_spends,
    workOffsetCommit_spends,
    workOffsetFetch_spends,
    workFindCoordinator_spends,
    workJoinGroup_spends,
    workHeartbeat_spends,
    workLeaveGroup_spends,
    workSyncGroup_spends,
    workDescribeGroups_spends,
    workListGroups_spends,
    workSaslHandshake_spends,
    workApiVersions_spends,
    workCreateTopics_spends,
    workDeleteTopics_spends,
    workDeleteRecords_spends,
    workInitProducerId_spends,
    workOffsetForLeaderEpoch_spends,
    workAddPartitionsToTxn_spends,
    workAddOffsetsToTxn_spends,
    workEndTxn_spends,
    workWriteTxnMarkers_spends,
    workTxnOffsetCommit_spends,
    workDescribeAcls_spends,
    workCreateAcls_spends,
    workDeleteAcls_spends,
    workDescribeConfigs_spends,
    workAlterConfigs_spends,
    workAlterReplicaLogDirs_spends,
    workDescribeLogDirs_spends,
    workSaslAuthenticate_spends,
    workCreatePartitions_spends,
    workCreateDelegationToken_spends,
    workRenewDelegationToken_spends,
    workExpireDelegationToken_spends,
    workDescribeDelegationToken_spends,
    workDeleteGroups_spends,
    workElectLeaders_spends,
    workIncrementalAlterConfigs_spends,
    workAlterPartitionReassignments_spends,
    workListPartitionReassignments_spends,
    workOffsetDelete_spends,
    fun _ h => absurd h (by simp)⟩

end Kafka.Msg
