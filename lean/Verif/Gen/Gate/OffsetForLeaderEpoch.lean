import Verif.Message.Gate
import Verif.Gen.Spec.OffsetForLeaderEpoch
/-!
Generated by tools/gen_messages.py: the version-dependent fields of the OffsetForLeaderEpoch messages.
-/
set_option linter.unusedSimpArgs false
namespace Kafka.Msg

/-- `t.ReplicaId = x` -/
def OffsetForLeaderEpochRequest_with_ReplicaId (t : OffsetForLeaderEpochRequest) (x : Int32) : OffsetForLeaderEpochRequest := { t with ReplicaId := x }
/-- `OffsetForLeaderEpochRequest.ReplicaId` -/
def OffsetForLeaderEpochRequest.gateReplicaId : Gate :=
  { M := OffsetForLeaderEpochRequest.type, L := OffsetForLeaderEpochRequest.layout, field := "ReplicaId", α := Int32, present := fun v => v ≥ 3,
    get := fun t => OffsetForLeaderEpochRequest.ReplicaId t, set := fun t x => OffsetForLeaderEpochRequest_with_ReplicaId t x }
theorem OffsetForLeaderEpochRequest.gateReplicaId_holds : OffsetForLeaderEpochRequest.gateReplicaId.Holds where
  get_set _ _ := rfl
  encode v h t x := by
    change OffsetForLeaderEpochRequest.encode v (OffsetForLeaderEpochRequest_with_ReplicaId t x) = OffsetForLeaderEpochRequest.encode v t
    change ¬(v ≥ 3) at h
    simp only [OffsetForLeaderEpochRequest.encode, OffsetForLeaderEpochRequest_with_ReplicaId, onlyIf_neg h]
  size v h t x := by
    change OffsetForLeaderEpochRequest.size v (OffsetForLeaderEpochRequest_with_ReplicaId t x) = OffsetForLeaderEpochRequest.size v t
    change ¬(v ≥ 3) at h
    simp only [OffsetForLeaderEpochRequest.size, OffsetForLeaderEpochRequest_with_ReplicaId, onlyIf_neg h]
  decode v h := by
    change ¬(v ≥ 3) at h
    refine (?_ : Keeps (fun t : OffsetForLeaderEpochRequest => t.ReplicaId) (OffsetForLeaderEpochRequest.decode v))
    unfold OffsetForLeaderEpochRequest.decode
    repeat' first
      | exact Keeps.absent h
      | apply Keeps.andThen
      | exact Keeps.field fun _ _ => rfl
      | exact Keeps.fieldStructs fun _ _ => rfl
      | apply Keeps.onlyIf
  carried v h t t0 t1 := by
    change (OffsetForLeaderEpochRequest.seen v t t0).ReplicaId = (OffsetForLeaderEpochRequest.seen v t t1).ReplicaId
    change v ≥ 3 at h
    simp only [OffsetForLeaderEpochRequest.seen, if_pos h]

/-- `t.CurrentLeaderEpoch = x` -/
def OffsetForLeaderPartition23_with_CurrentLeaderEpoch (t : OffsetForLeaderPartition23) (x : Int32) : OffsetForLeaderPartition23 := { t with CurrentLeaderEpoch := x }
/-- `OffsetForLeaderPartition23.CurrentLeaderEpoch` -/
def OffsetForLeaderPartition23.gateCurrentLeaderEpoch : Gate :=
  { M := OffsetForLeaderPartition23.type, L := OffsetForLeaderPartition23.layout, field := "CurrentLeaderEpoch", α := Int32, present := fun v => v ≥ 2,
    get := fun t => OffsetForLeaderPartition23.CurrentLeaderEpoch t, set := fun t x => OffsetForLeaderPartition23_with_CurrentLeaderEpoch t x }
theorem OffsetForLeaderPartition23.gateCurrentLeaderEpoch_holds : OffsetForLeaderPartition23.gateCurrentLeaderEpoch.Holds where
  get_set _ _ := rfl
  encode v h t x := by
    change OffsetForLeaderPartition23.encode v (OffsetForLeaderPartition23_with_CurrentLeaderEpoch t x) = OffsetForLeaderPartition23.encode v t
    change ¬(v ≥ 2) at h
    simp only [OffsetForLeaderPartition23.encode, OffsetForLeaderPartition23_with_CurrentLeaderEpoch, onlyIf_neg h]
  size v h t x := by
    change OffsetForLeaderPartition23.size v (OffsetForLeaderPartition23_with_CurrentLeaderEpoch t x) = OffsetForLeaderPartition23.size v t
    change ¬(v ≥ 2) at h
    simp only [OffsetForLeaderPartition23.size, OffsetForLeaderPartition23_with_CurrentLeaderEpoch, onlyIf_neg h]
  decode v h := by
    change ¬(v ≥ 2) at h
    refine (?_ : Keeps (fun t : OffsetForLeaderPartition23 => t.CurrentLeaderEpoch) (OffsetForLeaderPartition23.decode v))
    unfold OffsetForLeaderPartition23.decode
    repeat' first
      | exact Keeps.absent h
      | apply Keeps.andThen
      | exact Keeps.field fun _ _ => rfl
      | exact Keeps.fieldStructs fun _ _ => rfl
      | apply Keeps.onlyIf
  carried v h t t0 t1 := by
    change (OffsetForLeaderPartition23.seen v t t0).CurrentLeaderEpoch = (OffsetForLeaderPartition23.seen v t t1).CurrentLeaderEpoch
    change v ≥ 2 at h
    simp only [OffsetForLeaderPartition23.seen, if_pos h]

/-- `t.ThrottleTimeMs = x` -/
def OffsetForLeaderEpochResponse_with_ThrottleTimeMs (t : OffsetForLeaderEpochResponse) (x : Int32) : OffsetForLeaderEpochResponse := { t with ThrottleTimeMs := x }
/-- `OffsetForLeaderEpochResponse.ThrottleTimeMs` -/
def OffsetForLeaderEpochResponse.gateThrottleTimeMs : Gate :=
  { M := OffsetForLeaderEpochResponse.type, L := OffsetForLeaderEpochResponse.layout, field := "ThrottleTimeMs", α := Int32, present := fun v => v ≥ 2,
    get := fun t => OffsetForLeaderEpochResponse.ThrottleTimeMs t, set := fun t x => OffsetForLeaderEpochResponse_with_ThrottleTimeMs t x }
theorem OffsetForLeaderEpochResponse.gateThrottleTimeMs_holds : OffsetForLeaderEpochResponse.gateThrottleTimeMs.Holds where
  get_set _ _ := rfl
  encode v h t x := by
    change OffsetForLeaderEpochResponse.encode v (OffsetForLeaderEpochResponse_with_ThrottleTimeMs t x) = OffsetForLeaderEpochResponse.encode v t
    change ¬(v ≥ 2) at h
    simp only [OffsetForLeaderEpochResponse.encode, OffsetForLeaderEpochResponse_with_ThrottleTimeMs, onlyIf_neg h]
  size v h t x := by
    change OffsetForLeaderEpochResponse.size v (OffsetForLeaderEpochResponse_with_ThrottleTimeMs t x) = OffsetForLeaderEpochResponse.size v t
    change ¬(v ≥ 2) at h
    simp only [OffsetForLeaderEpochResponse.size, OffsetForLeaderEpochResponse_with_ThrottleTimeMs, onlyIf_neg h]
  decode v h := by
    change ¬(v ≥ 2) at h
    refine (?_ : Keeps (fun t : OffsetForLeaderEpochResponse => t.ThrottleTimeMs) (OffsetForLeaderEpochResponse.decode v))
    unfold OffsetForLeaderEpochResponse.decode
    repeat' first
      | exact Keeps.absent h
      | apply Keeps.andThen
      | exact Keeps.field fun _ _ => rfl
      | exact Keeps.fieldStructs fun _ _ => rfl
      | apply Keeps.onlyIf
  carried v h t t0 t1 := by
    change (OffsetForLeaderEpochResponse.seen v t t0).ThrottleTimeMs = (OffsetForLeaderEpochResponse.seen v t t1).ThrottleTimeMs
    change v ≥ 2 at h
    simp only [OffsetForLeaderEpochResponse.seen, if_pos h]

/-- `t.LeaderEpoch = x` -/
def OffsetForLeaderPartitionResult23_with_LeaderEpoch (t : OffsetForLeaderPartitionResult23) (x : Int32) : OffsetForLeaderPartitionResult23 := { t with LeaderEpoch := x }
/-- `OffsetForLeaderPartitionResult23.LeaderEpoch` -/
def OffsetForLeaderPartitionResult23.gateLeaderEpoch : Gate :=
  { M := OffsetForLeaderPartitionResult23.type, L := OffsetForLeaderPartitionResult23.layout, field := "LeaderEpoch", α := Int32, present := fun v => v ≥ 1,
    get := fun t => OffsetForLeaderPartitionResult23.LeaderEpoch t, set := fun t x => OffsetForLeaderPartitionResult23_with_LeaderEpoch t x }
theorem OffsetForLeaderPartitionResult23.gateLeaderEpoch_holds : OffsetForLeaderPartitionResult23.gateLeaderEpoch.Holds where
  get_set _ _ := rfl
  encode v h t x := by
    change OffsetForLeaderPartitionResult23.encode v (OffsetForLeaderPartitionResult23_with_LeaderEpoch t x) = OffsetForLeaderPartitionResult23.encode v t
    change ¬(v ≥ 1) at h
    simp only [OffsetForLeaderPartitionResult23.encode, OffsetForLeaderPartitionResult23_with_LeaderEpoch, onlyIf_neg h]
  size v h t x := by
    change OffsetForLeaderPartitionResult23.size v (OffsetForLeaderPartitionResult23_with_LeaderEpoch t x) = OffsetForLeaderPartitionResult23.size v t
    change ¬(v ≥ 1) at h
    simp only [OffsetForLeaderPartitionResult23.size, OffsetForLeaderPartitionResult23_with_LeaderEpoch, onlyIf_neg h]
  decode v h := by
    change ¬(v ≥ 1) at h
    refine (?_ : Keeps (fun t : OffsetForLeaderPartitionResult23 => t.LeaderEpoch) (OffsetForLeaderPartitionResult23.decode v))
    unfold OffsetForLeaderPartitionResult23.decode
    repeat' first
      | exact Keeps.absent h
      | apply Keeps.andThen
      | exact Keeps.field fun _ _ => rfl
      | exact Keeps.fieldStructs fun _ _ => rfl
      | apply Keeps.onlyIf
  carried v h t t0 t1 := by
    change (OffsetForLeaderPartitionResult23.seen v t t0).LeaderEpoch = (OffsetForLeaderPartitionResult23.seen v t t1).LeaderEpoch
    change v ≥ 1 at h
    simp only [OffsetForLeaderPartitionResult23.seen, if_pos h]

/-- The version-dependent fields of the OffsetForLeaderEpoch messages. -/
def gatesOffsetForLeaderEpoch : List Gate :=
  [OffsetForLeaderEpochRequest.gateReplicaId,
   OffsetForLeaderPartition23.gateCurrentLeaderEpoch,
   OffsetForLeaderEpochResponse.gateThrottleTimeMs,
   OffsetForLeaderPartitionResult23.gateLeaderEpoch]

theorem gatesOffsetForLeaderEpoch_hold : ∀ g ∈ gatesOffsetForLeaderEpoch, g.Holds := by
  unfold gatesOffsetForLeaderEpoch
  simp only [List.forall_mem_cons]
  exact ⟨OffsetForLeaderEpochRequest.gateReplicaId_holds,
    OffsetForLeaderPartition23.gateCurrentLeaderEpoch_holds,
    OffsetForLeaderEpochResponse.gateThrottleTimeMs_holds,
    OffsetForLeaderPartitionResult23.gateLeaderEpoch_holds,
    fun _ h => absurd h (by simp)⟩

end Kafka.Msg
