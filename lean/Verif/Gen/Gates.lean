import Verif.Gen.Gate.Produce
import Verif.Gen.Gate.Header
import Verif.Gen.Gate.Fetch
import Verif.Gen.Gate.ListOffset
import Verif.Gen.Gate.Metadata
import Verif.Gen.Gate.LeaderAndIsr
import Verif.Gen.Gate.StopReplica
import Verif.Gen.Gate.UpdateMetadata
import Verif.Gen.Gate.ControlledShutdown
import Verif.Gen.Gate.OffsetCommit
import Verif.Gen.Gate.OffsetFetch
import Verif.Gen.Gate.FindCoordinator
import Verif.Gen.Gate.JoinGroup
import Verif.Gen.Gate.Heartbeat
import Verif.Gen.Gate.LeaveGroup
import Verif.Gen.Gate.SyncGroup
import Verif.Gen.Gate.DescribeGroups
import Verif.Gen.Gate.ListGroups
import Verif.Gen.Gate.ApiVersions
import Verif.Gen.Gate.CreateTopics
import Verif.Gen.Gate.DeleteTopics
import Verif.Gen.Gate.OffsetForLeaderEpoch
import Verif.Gen.Gate.TxnOffsetCommit
import Verif.Gen.Gate.DescribeAcls
import Verif.Gen.Gate.CreateAcls
import Verif.Gen.Gate.DeleteAcls
import Verif.Gen.Gate.DescribeConfigs
import Verif.Gen.Gate.SaslAuthenticate
import Verif.Gen.Gate.ElectLeaders
/-!
Generated by tools/gen_messages.py: all version-dependent fields.
-/
namespace Kafka.Msg

/-- The version-dependent fields by API. -/
def gatesByApi : List (List Gate) :=
  [gatesProduce, gatesHeader, gatesFetch, gatesListOffset, gatesMetadata, gatesLeaderAndIsr, gatesStopReplica, gatesUpdateMetadata, gatesControlledShutdown, gatesOffsetCommit, gatesOffsetFetch, gatesFindCoordinator, gatesJoinGroup, gatesHeartbeat, gatesLeaveGroup, gatesSyncGroup, gatesDescribeGroups, gatesListGroups, gatesApiVersions, gatesCreateTopics, gatesDeleteTopics, gatesOffsetForLeaderEpoch, gatesTxnOffsetCommit, gatesDescribeAcls, gatesCreateAcls, gatesDeleteAcls, gatesDescribeConfigs, gatesSaslAuthenticate, gatesElectLeaders]

/-- The version-dependent fields of all message types. -/
def gates : List Gate := gatesByApi.flatten

set_option maxRecDepth 4000 in
theorem gates_length : gates.length = 150 := rfl

theorem gates_hold : ∀ g ∈ gates, g.Holds := by
  suffices h : ∀ l ∈ gatesByApi, ∀ g ∈ l, g.Holds by
    intro g hg
    obtain ⟨l, hl, hg⟩ := List.mem_flatten.1 hg
    exact h l hl g hg
  unfold gatesByApi
  simp only [List.forall_mem_cons]
  exact ⟨gatesProduce_hold,
    gatesHeader_hold,
    gatesFetch_hold,
    gatesListOffset_hold,
    gatesMetadata_hold,
    gatesLeaderAndIsr_hold,
    gatesStopReplica_hold,
    gatesUpdateMetadata_hold,
    gatesControlledShutdown_hold,
    gatesOffsetCommit_hold,
    gatesOffsetFetch_hold,
    gatesFindCoordinator_hold,
    gatesJoinGroup_hold,
    gatesHeartbeat_hold,
    gatesLeaveGroup_hold,
    gatesSyncGroup_hold,
    gatesDescribeGroups_hold,
    gatesListGroups_hold,
    gatesApiVersions_hold,
    gatesCreateTopics_hold,
    gatesDeleteTopics_hold,
    gatesOffsetForLeaderEpoch_hold,
    gatesTxnOffsetCommit_hold,
    gatesDescribeAcls_hold,
    gatesCreateAcls_hold,
    gatesDeleteAcls_hold,
    gatesDescribeConfigs_hold,
    gatesSaslAuthenticate_hold,
    gatesElectLeaders_hold,
    fun _ h => absurd h (by simp)⟩

end Kafka.Msg
