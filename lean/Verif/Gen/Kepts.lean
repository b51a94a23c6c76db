import Verif.Gen.Kept.Produce
import Verif.Gen.Kept.Header
import Verif.Gen.Kept.Fetch
import Verif.Gen.Kept.ListOffset
import Verif.Gen.Kept.Metadata
import Verif.Gen.Kept.LeaderAndIsr
import Verif.Gen.Kept.StopReplica
import Verif.Gen.Kept.UpdateMetadata
import Verif.Gen.Kept.ControlledShutdown
import Verif.Gen.Kept.OffsetCommit
import Verif.Gen.Kept.OffsetFetch
import Verif.Gen.Kept.FindCoordinator
import Verif.Gen.Kept.JoinGroup
import Verif.Gen.Kept.Heartbeat
import Verif.Gen.Kept.LeaveGroup
import Verif.Gen.Kept.SyncGroup
import Verif.Gen.Kept.DescribeGroups
import Verif.Gen.Kept.ListGroups
import Verif.Gen.Kept.SaslHandshake
import Verif.Gen.Kept.ApiVersions
import Verif.Gen.Kept.CreateTopics
import Verif.Gen.Kept.DeleteTopics
import Verif.Gen.Kept.DeleteRecords
import Verif.Gen.Kept.InitProducerId
import Verif.Gen.Kept.OffsetForLeaderEpoch
import Verif.Gen.Kept.AddPartitionsToTxn
import Verif.Gen.Kept.AddOffsetsToTxn
import Verif.Gen.Kept.EndTxn
import Verif.Gen.Kept.WriteTxnMarkers
import Verif.Gen.Kept.TxnOffsetCommit
import Verif.Gen.Kept.DescribeAcls
import Verif.Gen.Kept.CreateAcls
import Verif.Gen.Kept.DeleteAcls
import Verif.Gen.Kept.DescribeConfigs
import Verif.Gen.Kept.AlterConfigs
import Verif.Gen.Kept.AlterReplicaLogDirs
import Verif.Gen.Kept.DescribeLogDirs
import Verif.Gen.Kept.SaslAuthenticate
import Verif.Gen.Kept.CreatePartitions
import Verif.Gen.Kept.CreateDelegationToken
import Verif.Gen.Kept.RenewDelegationToken
import Verif.Gen.Kept.ExpireDelegationToken
import Verif.Gen.Kept.DescribeDelegationToken
import Verif.Gen.Kept.DeleteGroups
import Verif.Gen.Kept.ElectLeaders
import Verif.Gen.Kept.IncrementalAlterConfigs
import Verif.Gen.Kept.AlterPartitionReassignments
import Verif.Gen.Kept.ListPartitionReassignments
import Verif.Gen.Kept.OffsetDelete
import Verif.Gen.All
/-!
Generated by tools/gen_messages.py: what is in a message after an error, all types.
-/
namespace Kafka.Msg

/-- By API. -/
def keptsByApi : List (List (Σ (M : MsgType) (_ : Layout M), KeptMsg M)) :=
  [keptProduce, keptHeader, keptFetch, keptListOffset, keptMetadata, keptLeaderAndIsr, keptStopReplica, keptUpdateMetadata, keptControlledShutdown, keptOffsetCommit, keptOffsetFetch, keptFindCoordinator, keptJoinGroup, keptHeartbeat, keptLeaveGroup, keptSyncGroup, keptDescribeGroups, keptListGroups, keptSaslHandshake, keptApiVersions, keptCreateTopics, keptDeleteTopics, keptDeleteRecords, keptInitProducerId, keptOffsetForLeaderEpoch, keptAddPartitionsToTxn, keptAddOffsetsToTxn, keptEndTxn, keptWriteTxnMarkers, keptTxnOffsetCommit, keptDescribeAcls, keptCreateAcls, keptDeleteAcls, keptDescribeConfigs, keptAlterConfigs, keptAlterReplicaLogDirs, keptDescribeLogDirs, keptSaslAuthenticate, keptCreatePartitions, keptCreateDelegationToken, keptRenewDelegationToken, keptExpireDelegationToken, keptDescribeDelegationToken, keptDeleteGroups, keptElectLeaders, keptIncrementalAlterConfigs, keptAlterPartitionReassignments, keptListPartitionReassignments, keptOffsetDelete]

/-- All message types. -/
def kepts : List (Σ (M : MsgType) (_ : Layout M), KeptMsg M) := keptsByApi.flatten

set_option maxRecDepth 4000 in
/-- They are the ones of `all`. -/
theorem kepts_all : kepts.map (fun p => (⟨p.1, p.2.1⟩ : Σ M : MsgType, Layout M)) = all := rfl

theorem kepts_hold : ∀ p ∈ kepts, p.2.2.Holds p.2.1 := by
  suffices h : ∀ l ∈ keptsByApi, ∀ p ∈ l, p.2.2.Holds p.2.1 by
    intro p hp
    obtain ⟨l, hl, hp⟩ := List.mem_flatten.1 hp
    exact h l hl p hp
  unfold keptsByApi
  simp only [List.forall_mem_cons]
  exact ⟨keptProduce_holds,
    keptHeader_holds,
    keptFetch_holds,
    keptListOffset_holds,
    keptMetadata_holds,
    keptLeaderAndIsr_holds,
    keptStopReplica_holds,
    keptUpdateMetadata_holds,
    keptControlledShutdown_holds,
    keptOffsetCommit_holds,
    keptOffsetFetch_holds,
    keptFindCoordinator_holds,
    keptJoinGroup_holds,
    keptHeartbeat_holds,
    keptLeaveGroup_holds,
    keptSyncGroup_holds,
    keptDescribeGroups_holds,
    keptListGroups_holds,
    keptSaslHandshake_holds,
    keptApiVersions_holds,
    keptCreateTopics_holds,
    keptDeleteTopics_holds,
    keptDeleteRecords_holds,
    keptInitProducerId_holds,
    keptOffsetForLeaderEpoch_holds,
    keptAddPartitionsToTxn_holds,
    keptAddOffsetsToTxn_holds,
    keptEndTxn_holds,
    keptWriteTxnMarkers_holds,
    keptTxnOffsetCommit_holds,
    keptDescribeAcls_holds,
    keptCreateAcls_holds,
    keptDeleteAcls_holds,
    keptDescribeConfigs_holds,
    keptAlterConfigs_holds,
    keptAlterReplicaLogDirs_holds,
    keptDescribeLogDirs_holds,
    keptSaslAuthenticate_holds,
    keptCreatePartitions_holds,
    keptCreateDelegationToken_holds,
    keptRenewDelegationToken_holds,
    keptExpireDelegationToken_holds,
    keptDescribeDelegationToken_holds,
    keptDeleteGroups_holds,
    keptElectLeaders_holds,
    keptIncrementalAlterConfigs_holds,
    keptAlterPartitionReassignments_holds,
    keptListPartitionReassignments_holds,
    keptOffsetDelete_holds,
    fun _ h => absurd h (by simp)⟩

end Kafka.Msg
