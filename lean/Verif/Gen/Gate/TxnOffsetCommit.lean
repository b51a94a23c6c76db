import Verif.Message.Gate
import Verif.Gen.Spec.TxnOffsetCommit
/-!
Generated by tools/gen_messages.py: the version-dependent fields of the TxnOffsetCommit messages.
-/
set_option linter.unusedSimpArgs false
namespace Kafka.Msg

/-- `t.CommittedLeaderEpoch = x` -/
def TxnOffsetCommitRequestPartition28_with_CommittedLeaderEpoch (t : TxnOffsetCommitRequestPartition28) (x : Int32) : TxnOffsetCommitRequestPartition28 := { t with CommittedLeaderEpoch := x }
/-- `TxnOffsetCommitRequestPartition28.CommittedLeaderEpoch` -/
def TxnOffsetCommitRequestPartition28.gateCommittedLeaderEpoch : Gate :=
  { M := TxnOffsetCommitRequestPartition28.type, L := TxnOffsetCommitRequestPartition28.layout, field := "CommittedLeaderEpoch", α := Int32, present := fun v => v ≥ 2,
    get := fun t => TxnOffsetCommitRequestPartition28.CommittedLeaderEpoch t, set := fun t x => TxnOffsetCommitRequestPartition28_with_CommittedLeaderEpoch t x }
theorem TxnOffsetCommitRequestPartition28.gateCommittedLeaderEpoch_holds : TxnOffsetCommitRequestPartition28.gateCommittedLeaderEpoch.Holds where
  get_set _ _ := rfl
  encode v h t x := by
    change TxnOffsetCommitRequestPartition28.encode v (TxnOffsetCommitRequestPartition28_with_CommittedLeaderEpoch t x) = TxnOffsetCommitRequestPartition28.encode v t
    change ¬(v ≥ 2) at h
    simp only [TxnOffsetCommitRequestPartition28.encode, TxnOffsetCommitRequestPartition28_with_CommittedLeaderEpoch, onlyIf_neg h]
  size v h t x := by
    change TxnOffsetCommitRequestPartition28.size v (TxnOffsetCommitRequestPartition28_with_CommittedLeaderEpoch t x) = TxnOffsetCommitRequestPartition28.size v t
    change ¬(v ≥ 2) at h
    simp only [TxnOffsetCommitRequestPartition28.size, TxnOffsetCommitRequestPartition28_with_CommittedLeaderEpoch, onlyIf_neg h]
  decode v h := by
    change ¬(v ≥ 2) at h
    refine (?_ : Keeps (fun t : TxnOffsetCommitRequestPartition28 => t.CommittedLeaderEpoch) (TxnOffsetCommitRequestPartition28.decode v))
    unfold TxnOffsetCommitRequestPartition28.decode
    repeat' first
      | exact Keeps.absent h
      | apply Keeps.andThen
      | exact Keeps.field fun _ _ => rfl
      | exact Keeps.fieldStructs fun _ _ => rfl
      | apply Keeps.onlyIf
  carried v h t t0 t1 := by
    change (TxnOffsetCommitRequestPartition28.seen v t t0).CommittedLeaderEpoch = (TxnOffsetCommitRequestPartition28.seen v t t1).CommittedLeaderEpoch
    change v ≥ 2 at h
    simp only [TxnOffsetCommitRequestPartition28.seen, if_pos h]

/-- The version-dependent fields of the TxnOffsetCommit messages. -/
def gatesTxnOffsetCommit : List Gate :=
  [TxnOffsetCommitRequestPartition28.gateCommittedLeaderEpoch]

theorem gatesTxnOffsetCommit_hold : ∀ g ∈ gatesTxnOffsetCommit, g.Holds := by
  unfold gatesTxnOffsetCommit
  simp only [List.forall_mem_cons]
  exact ⟨TxnOffsetCommitRequestPartition28.gateCommittedLeaderEpoch_holds,
    fun _ h => absurd h (by simp)⟩

end Kafka.Msg
