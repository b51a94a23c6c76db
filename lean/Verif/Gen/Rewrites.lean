import Verif.Gen.Rewrite.Produce
import Verif.Gen.Rewrite.Header
import Verif.Gen.Rewrite.Fetch
import Verif.Gen.Rewrite.ListOffset
import Verif.Gen.Rewrite.Metadata
import Verif.Gen.Rewrite.LeaderAndIsr
import Verif.Gen.Rewrite.StopReplica
import Verif.Gen.Rewrite.UpdateMetadata
import Verif.Gen.Rewrite.ControlledShutdown
import Verif.Gen.Rewrite.OffsetCommit
import Verif.Gen.Rewrite.OffsetFetch
import Verif.Gen.Rewrite.FindCoordinator
import Verif.Gen.Rewrite.JoinGroup
import Verif.Gen.Rewrite.Heartbeat
import Verif.Gen.Rewrite.LeaveGroup
import Verif.Gen.Rewrite.SyncGroup
import Verif.Gen.Rewrite.DescribeGroups
import Verif.Gen.Rewrite.ListGroups
import Verif.Gen.Rewrite.SaslHandshake
import Verif.Gen.Rewrite.ApiVersions
import Verif.Gen.Rewrite.CreateTopics
import Verif.Gen.Rewrite.DeleteTopics
import Verif.Gen.Rewrite.DeleteRecords
import Verif.Gen.Rewrite.InitProducerId
import Verif.Gen.Rewrite.OffsetForLeaderEpoch
import Verif.Gen.Rewrite.AddPartitionsToTxn
import Verif.Gen.Rewrite.AddOffsetsToTxn
import Verif.Gen.Rewrite.EndTxn
import Verif.Gen.Rewrite.WriteTxnMarkers
import Verif.Gen.Rewrite.TxnOffsetCommit
import Verif.Gen.Rewrite.DescribeAcls
import Verif.Gen.Rewrite.CreateAcls
import Verif.Gen.Rewrite.DeleteAcls
import Verif.Gen.Rewrite.DescribeConfigs
import Verif.Gen.Rewrite.AlterConfigs
import Verif.Gen.Rewrite.AlterReplicaLogDirs
import Verif.Gen.Rewrite.DescribeLogDirs
import Verif.Gen.Rewrite.SaslAuthenticate
import Verif.Gen.Rewrite.CreatePartitions
import Verif.Gen.Rewrite.CreateDelegationToken
import Verif.Gen.Rewrite.RenewDelegationToken
import Verif.Gen.Rewrite.ExpireDelegationToken
import Verif.Gen.Rewrite.DescribeDelegationToken
import Verif.Gen.Rewrite.DeleteGroups
import Verif.Gen.Rewrite.ElectLeaders
import Verif.Gen.Rewrite.IncrementalAlterConfigs
import Verif.Gen.Rewrite.AlterPartitionReassignments
import Verif.Gen.Rewrite.ListPartitionReassignments
import Verif.Gen.Rewrite.OffsetDelete
/-!
Generated by tools/gen_messages.py: encoding what was decoded, all types.
-/
namespace Kafka.Msg

theorem all_rewrites : ∀ p ∈ all, ∀ v, Rewrites (p.1.decode v p.1.zero) (p.2.wire v) (p.2.Fits v) := by
  suffices h : ∀ l ∈ byApi, ∀ p ∈ l, ∀ v, Rewrites (p.1.decode v p.1.zero) (p.2.wire v) (p.2.Fits v) by
    intro p hp
    obtain ⟨l, hl, hp⟩ := List.mem_flatten.1 hp
    exact h l hl p hp
  unfold byApi
  simp only [List.forall_mem_cons]
  exact ⟨rewritesProduce,
    rewritesHeader,
    rewritesFetch,
    rewritesListOffset,
    rewritesMetadata,
    rewritesLeaderAndIsr,
    rewritesStopReplica,
    rewritesUpdateMetadata,
    rewritesControlledShutdown,
    rewritesOffsetCommit,
    rewritesOffsetFetch,
    rewritesFindCoordinator,
    rewritesJoinGroup,
    rewritesHeartbeat,
    rewritesLeaveGroup,
    rewritesSyncGroup,
    rewritesDescribeGroups,
    rewritesListGroups,
    rewritesSaslHandshake,
    rewritesApiVersions,
    rewritesCreateTopics,
    rewritesDeleteTopics,
    rewritesDeleteRecords,
    rewritesInitProducerId,
    rewritesOffsetForLeaderEpoch,
    rewritesAddPartitionsToTxn,
    rewritesAddOffsetsToTxn,
    rewritesEndTxn,
    rewritesWriteTxnMarkers,
    rewritesTxnOffsetCommit,
    rewritesDescribeAcls,
    rewritesCreateAcls,
    rewritesDeleteAcls,
    rewritesDescribeConfigs,
    rewritesAlterConfigs,
    rewritesAlterReplicaLogDirs,
    rewritesDescribeLogDirs,
    rewritesSaslAuthenticate,
    rewritesCreatePartitions,
    rewritesCreateDelegationToken,
    rewritesRenewDelegationToken,
    rewritesExpireDelegationToken,
    rewritesDescribeDelegationToken,
    rewritesDeleteGroups,
    rewritesElectLeaders,
    rewritesIncrementalAlterConfigs,
    rewritesAlterPartitionReassignments,
    rewritesListPartitionReassignments,
    rewritesOffsetDelete,
    fun _ h => absurd h (by simp)⟩

end Kafka.Msg
