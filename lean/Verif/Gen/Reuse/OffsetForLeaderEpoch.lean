import Verif.Message.Reuse
import Verif.Gen.Spec.OffsetForLeaderEpoch
/-!
Generated by tools/gen_messages.py: decoding into OffsetForLeaderEpoch messages used before.
-/
set_option linter.unusedSimpArgs false
set_option linter.unusedVariables false
namespace Kafka.Msg

/-- What `t0` becomes where a new `OffsetForLeaderPartition23` becomes `y`. -/
def OffsetForLeaderPartition23.over (version : Int16) (y t0 : OffsetForLeaderPartition23) : OffsetForLeaderPartition23 :=
  { PartitionIndex := y.PartitionIndex,
    CurrentLeaderEpoch := if version ≥ 2 then y.CurrentLeaderEpoch else t0.CurrentLeaderEpoch,
    LeaderEpoch := y.LeaderEpoch }

/-- An array of structures is nil. -/
def OffsetForLeaderPartition23.Nulls (_version : Int16) (_y : OffsetForLeaderPartition23) : Prop :=
  False

/-- `OffsetForLeaderPartition23` in use again. -/
def OffsetForLeaderPartition23.reuse : Reuse OffsetForLeaderPartition23.type := { over := OffsetForLeaderPartition23.over, Nulls := OffsetForLeaderPartition23.Nulls }

/-- The same after the first `k` statements of `Decode`. -/
def OffsetForLeaderPartition23.overAt (version : Int16) (k : Nat) (y t0 : OffsetForLeaderPartition23) : OffsetForLeaderPartition23 :=
  { PartitionIndex := upto k 0 (y.PartitionIndex) t0.PartitionIndex,
    CurrentLeaderEpoch := upto k 1 (if version ≥ 2 then y.CurrentLeaderEpoch else t0.CurrentLeaderEpoch) t0.CurrentLeaderEpoch,
    LeaderEpoch := upto k 2 (y.LeaderEpoch) t0.LeaderEpoch }

theorem OffsetForLeaderPartition23.sim (v : Int16) (t0 : OffsetForLeaderPartition23) : Sim (OffsetForLeaderPartition23.overAt v 0 · t0) (OffsetForLeaderPartition23.overAt v 3 · t0) (OffsetForLeaderPartition23.decode v) :=
  ((.field fun _ _ => rfl) : Sim (OffsetForLeaderPartition23.overAt v 0 · t0) (OffsetForLeaderPartition23.overAt v 1 · t0) _)
    |>.andThen ((.onlyIf (fun hc => .field fun _ _ => by simp only [OffsetForLeaderPartition23.overAt, if_pos hc]; rfl) fun hc _ => by simp only [OffsetForLeaderPartition23.overAt, if_neg hc]; rfl) : Sim (OffsetForLeaderPartition23.overAt v 1 · t0) (OffsetForLeaderPartition23.overAt v 2 · t0) _)
    |>.andThen ((.field fun _ _ => rfl) : Sim (OffsetForLeaderPartition23.overAt v 2 · t0) (OffsetForLeaderPartition23.overAt v 3 · t0) _)
theorem OffsetForLeaderPartition23.reusable : OffsetForLeaderPartition23.reuse.Holds OffsetForLeaderPartition23.layout where
  decode v t0 d := by
    have h := OffsetForLeaderPartition23.sim v t0 {} d
    have e : OffsetForLeaderPartition23.overAt v 0 {} t0 = t0 := by first | rfl | (simp only [OffsetForLeaderPartition23.overAt, upto_zero, Option.none_or, ite_self] <;> rfl)
    simp only [e] at h
    exact h
  same v y t0 h := (app_congr (app_congr rfl (again_opt Wire.int32 y.CurrentLeaderEpoch t0.CurrentLeaderEpoch)) rfl)
  stale _ _ h := h.elim

/-- What `t0` becomes where a new `OffsetForLeaderTopic23` becomes `y`. -/
def OffsetForLeaderTopic23.over (_version : Int16) (y t0 : OffsetForLeaderTopic23) : OffsetForLeaderTopic23 :=
  { Name := y.Name,
    Partitions := y.Partitions.or t0.Partitions }

/-- An array of structures is nil. -/
def OffsetForLeaderTopic23.Nulls (_version : Int16) (y : OffsetForLeaderTopic23) : Prop :=
  y.Partitions = none

/-- `OffsetForLeaderTopic23` in use again. -/
def OffsetForLeaderTopic23.reuse : Reuse OffsetForLeaderTopic23.type := { over := OffsetForLeaderTopic23.over, Nulls := OffsetForLeaderTopic23.Nulls }

/-- The same after the first `k` statements of `Decode`. -/
def OffsetForLeaderTopic23.overAt (_version : Int16) (k : Nat) (y t0 : OffsetForLeaderTopic23) : OffsetForLeaderTopic23 :=
  { Name := upto k 0 (y.Name) t0.Name,
    Partitions := y.Partitions.or t0.Partitions }

theorem OffsetForLeaderTopic23.sim (v : Int16) (t0 : OffsetForLeaderTopic23) : Sim (OffsetForLeaderTopic23.overAt v 0 · t0) (OffsetForLeaderTopic23.overAt v 2 · t0) (OffsetForLeaderTopic23.decode v) :=
  ((.field fun _ _ => rfl) : Sim (OffsetForLeaderTopic23.overAt v 0 · t0) (OffsetForLeaderTopic23.overAt v 1 · t0) _)
    |>.andThen ((.structs (fun _ _ => rfl) fun _ => rfl) : Sim (OffsetForLeaderTopic23.overAt v 1 · t0) (OffsetForLeaderTopic23.overAt v 2 · t0) _)
theorem OffsetForLeaderTopic23.reusable : OffsetForLeaderTopic23.reuse.Holds OffsetForLeaderTopic23.layout where
  decode v t0 d := by
    have h := OffsetForLeaderTopic23.sim v t0 {} d
    have e : OffsetForLeaderTopic23.overAt v 0 {} t0 = t0 := by first | rfl | (simp only [OffsetForLeaderTopic23.overAt, upto_zero, Option.none_or, ite_self] <;> rfl)
    simp only [e] at h
    exact h
  same v y t0 h := (app_congr rfl (same_or fun hn => h (hn)))
  stale v y h := by
    obtain h := h
    · exact ⟨({ Partitions := some [{}] } : OffsetForLeaderTopic23), (app_ne_right rfl (stale_or h))⟩

/-- What `t0` becomes where a new `OffsetForLeaderEpochRequest` becomes `y`. -/
def OffsetForLeaderEpochRequest.over (version : Int16) (y t0 : OffsetForLeaderEpochRequest) : OffsetForLeaderEpochRequest :=
  { ReplicaId := if version ≥ 3 then y.ReplicaId else t0.ReplicaId,
    Topics := y.Topics.or t0.Topics }

/-- An array of structures is nil. -/
def OffsetForLeaderEpochRequest.Nulls (_version : Int16) (y : OffsetForLeaderEpochRequest) : Prop :=
  y.Topics = none

/-- `OffsetForLeaderEpochRequest` in use again. -/
def OffsetForLeaderEpochRequest.reuse : Reuse OffsetForLeaderEpochRequest.type := { over := OffsetForLeaderEpochRequest.over, Nulls := OffsetForLeaderEpochRequest.Nulls }

/-- The same after the first `k` statements of `Decode`. -/
def OffsetForLeaderEpochRequest.overAt (version : Int16) (k : Nat) (y t0 : OffsetForLeaderEpochRequest) : OffsetForLeaderEpochRequest :=
  { ReplicaId := upto k 0 (if version ≥ 3 then y.ReplicaId else t0.ReplicaId) t0.ReplicaId,
    Topics := y.Topics.or t0.Topics }

theorem OffsetForLeaderEpochRequest.sim (v : Int16) (t0 : OffsetForLeaderEpochRequest) : Sim (OffsetForLeaderEpochRequest.overAt v 0 · t0) (OffsetForLeaderEpochRequest.overAt v 2 · t0) (OffsetForLeaderEpochRequest.decode v) :=
  ((.onlyIf (fun hc => .field fun _ _ => by simp only [OffsetForLeaderEpochRequest.overAt, if_pos hc]; rfl) fun hc _ => by simp only [OffsetForLeaderEpochRequest.overAt, if_neg hc]; rfl) : Sim (OffsetForLeaderEpochRequest.overAt v 0 · t0) (OffsetForLeaderEpochRequest.overAt v 1 · t0) _)
    |>.andThen ((.structs (fun _ _ => rfl) fun _ => rfl) : Sim (OffsetForLeaderEpochRequest.overAt v 1 · t0) (OffsetForLeaderEpochRequest.overAt v 2 · t0) _)
theorem OffsetForLeaderEpochRequest.reusable : OffsetForLeaderEpochRequest.reuse.Holds OffsetForLeaderEpochRequest.layout where
  decode v t0 d := by
    have h := OffsetForLeaderEpochRequest.sim v t0 {} d
    have e : OffsetForLeaderEpochRequest.overAt v 0 {} t0 = t0 := by first | rfl | (simp only [OffsetForLeaderEpochRequest.overAt, upto_zero, Option.none_or, ite_self] <;> rfl)
    simp only [e] at h
    exact h
  same v y t0 h := (app_congr (again_opt Wire.int32 y.ReplicaId t0.ReplicaId) (same_or fun hn => h (hn)))
  stale v y h := by
    obtain h := h
    · exact ⟨({ Topics := some [{}] } : OffsetForLeaderEpochRequest), (app_ne_right (again_opt Wire.int32 y.ReplicaId 0) (stale_or h))⟩

/-- What `t0` becomes where a new `OffsetForLeaderPartitionResult23` becomes `y`. -/
def OffsetForLeaderPartitionResult23.over (version : Int16) (y t0 : OffsetForLeaderPartitionResult23) : OffsetForLeaderPartitionResult23 :=
  { ErrorCode := y.ErrorCode,
    PartitionIndex := y.PartitionIndex,
    LeaderEpoch := if version ≥ 1 then y.LeaderEpoch else t0.LeaderEpoch,
    EndOffset := y.EndOffset }

/-- An array of structures is nil. -/
def OffsetForLeaderPartitionResult23.Nulls (_version : Int16) (_y : OffsetForLeaderPartitionResult23) : Prop :=
  False

/-- `OffsetForLeaderPartitionResult23` in use again. -/
def OffsetForLeaderPartitionResult23.reuse : Reuse OffsetForLeaderPartitionResult23.type := { over := OffsetForLeaderPartitionResult23.over, Nulls := OffsetForLeaderPartitionResult23.Nulls }

/-- The same after the first `k` statements of `Decode`. -/
def OffsetForLeaderPartitionResult23.overAt (version : Int16) (k : Nat) (y t0 : OffsetForLeaderPartitionResult23) : OffsetForLeaderPartitionResult23 :=
  { ErrorCode := upto k 0 (y.ErrorCode) t0.ErrorCode,
    PartitionIndex := upto k 1 (y.PartitionIndex) t0.PartitionIndex,
    LeaderEpoch := upto k 2 (if version ≥ 1 then y.LeaderEpoch else t0.LeaderEpoch) t0.LeaderEpoch,
    EndOffset := upto k 3 (y.EndOffset) t0.EndOffset }

theorem OffsetForLeaderPartitionResult23.sim (v : Int16) (t0 : OffsetForLeaderPartitionResult23) : Sim (OffsetForLeaderPartitionResult23.overAt v 0 · t0) (OffsetForLeaderPartitionResult23.overAt v 4 · t0) (OffsetForLeaderPartitionResult23.decode v) :=
  ((.field fun _ _ => rfl) : Sim (OffsetForLeaderPartitionResult23.overAt v 0 · t0) (OffsetForLeaderPartitionResult23.overAt v 1 · t0) _)
    |>.andThen ((.field fun _ _ => rfl) : Sim (OffsetForLeaderPartitionResult23.overAt v 1 · t0) (OffsetForLeaderPartitionResult23.overAt v 2 · t0) _)
    |>.andThen ((.onlyIf (fun hc => .field fun _ _ => by simp only [OffsetForLeaderPartitionResult23.overAt, if_pos hc]; rfl) fun hc _ => by simp only [OffsetForLeaderPartitionResult23.overAt, if_neg hc]; rfl) : Sim (OffsetForLeaderPartitionResult23.overAt v 2 · t0) (OffsetForLeaderPartitionResult23.overAt v 3 · t0) _)
    |>.andThen ((.field fun _ _ => rfl) : Sim (OffsetForLeaderPartitionResult23.overAt v 3 · t0) (OffsetForLeaderPartitionResult23.overAt v 4 · t0) _)
theorem OffsetForLeaderPartitionResult23.reusable : OffsetForLeaderPartitionResult23.reuse.Holds OffsetForLeaderPartitionResult23.layout where
  decode v t0 d := by
    have h := OffsetForLeaderPartitionResult23.sim v t0 {} d
    have e : OffsetForLeaderPartitionResult23.overAt v 0 {} t0 = t0 := by first | rfl | (simp only [OffsetForLeaderPartitionResult23.overAt, upto_zero, Option.none_or, ite_self] <;> rfl)
    simp only [e] at h
    exact h
  same v y t0 h := (app_congr (app_congr (app_congr rfl rfl) (again_opt Wire.int32 y.LeaderEpoch t0.LeaderEpoch)) rfl)
  stale _ _ h := h.elim

/-- What `t0` becomes where a new `OffsetForLeaderTopicResult23` becomes `y`. -/
def OffsetForLeaderTopicResult23.over (_version : Int16) (y t0 : OffsetForLeaderTopicResult23) : OffsetForLeaderTopicResult23 :=
  { Name := y.Name,
    Partitions := y.Partitions.or t0.Partitions }

/-- An array of structures is nil. -/
def OffsetForLeaderTopicResult23.Nulls (_version : Int16) (y : OffsetForLeaderTopicResult23) : Prop :=
  y.Partitions = none

/-- `OffsetForLeaderTopicResult23` in use again. -/
def OffsetForLeaderTopicResult23.reuse : Reuse OffsetForLeaderTopicResult23.type := { over := OffsetForLeaderTopicResult23.over, Nulls := OffsetForLeaderTopicResult23.Nulls }

/-- The same after the first `k` statements of `Decode`. -/
def OffsetForLeaderTopicResult23.overAt (_version : Int16) (k : Nat) (y t0 : OffsetForLeaderTopicResult23) : OffsetForLeaderTopicResult23 :=
  { Name := upto k 0 (y.Name) t0.Name,
    Partitions := y.Partitions.or t0.Partitions }

theorem OffsetForLeaderTopicResult23.sim (v : Int16) (t0 : OffsetForLeaderTopicResult23) : Sim (OffsetForLeaderTopicResult23.overAt v 0 · t0) (OffsetForLeaderTopicResult23.overAt v 2 · t0) (OffsetForLeaderTopicResult23.decode v) :=
  ((.field fun _ _ => rfl) : Sim (OffsetForLeaderTopicResult23.overAt v 0 · t0) (OffsetForLeaderTopicResult23.overAt v 1 · t0) _)
    |>.andThen ((.structs (fun _ _ => rfl) fun _ => rfl) : Sim (OffsetForLeaderTopicResult23.overAt v 1 · t0) (OffsetForLeaderTopicResult23.overAt v 2 · t0) _)
theorem OffsetForLeaderTopicResult23.reusable : OffsetForLeaderTopicResult23.reuse.Holds OffsetForLeaderTopicResult23.layout where
  decode v t0 d := by
    have h := OffsetForLeaderTopicResult23.sim v t0 {} d
    have e : OffsetForLeaderTopicResult23.overAt v 0 {} t0 = t0 := by first | rfl | (simp only [OffsetForLeaderTopicResult23.overAt, upto_zero, Option.none_or, ite_self] <;> rfl)
    simp only [e] at h
    exact h
  same v y t0 h := (app_congr rfl (same_or fun hn => h (hn)))
  stale v y h := by
    obtain h := h
    · exact ⟨({ Partitions := some [{}] } : OffsetForLeaderTopicResult23), (app_ne_right rfl (stale_or h))⟩

/-- What `t0` becomes where a new `OffsetForLeaderEpochResponse` becomes `y`. -/
def OffsetForLeaderEpochResponse.over (version : Int16) (y t0 : OffsetForLeaderEpochResponse) : OffsetForLeaderEpochResponse :=
  { ThrottleTimeMs := if version ≥ 2 then y.ThrottleTimeMs else t0.ThrottleTimeMs,
    Topics := y.Topics.or t0.Topics }

/-- An array of structures is nil. -/
def OffsetForLeaderEpochResponse.Nulls (_version : Int16) (y : OffsetForLeaderEpochResponse) : Prop :=
  y.Topics = none

/-- `OffsetForLeaderEpochResponse` in use again. -/
def OffsetForLeaderEpochResponse.reuse : Reuse OffsetForLeaderEpochResponse.type := { over := OffsetForLeaderEpochResponse.over, Nulls := OffsetForLeaderEpochResponse.Nulls }

/-- The same after the first `k` statements of `Decode`. -/
def OffsetForLeaderEpochResponse.overAt (version : Int16) (k : Nat) (y t0 : OffsetForLeaderEpochResponse) : OffsetForLeaderEpochResponse :=
  { ThrottleTimeMs := upto k 0 (if version ≥ 2 then y.ThrottleTimeMs else t0.ThrottleTimeMs) t0.ThrottleTimeMs,
    Topics := y.Topics.or t0.Topics }

theorem OffsetForLeaderEpochResponse.sim (v : Int16) (t0 : OffsetForLeaderEpochResponse) : Sim (OffsetForLeaderEpochResponse.overAt v 0 · t0) (OffsetForLeaderEpochResponse.overAt v 2 · t0) (OffsetForLeaderEpochResponse.decode v) :=
  ((.onlyIf (fun hc => .field fun _ _ => by simp only [OffsetForLeaderEpochResponse.overAt, if_pos hc]; rfl) fun hc _ => by simp only [OffsetForLeaderEpochResponse.overAt, if_neg hc]; rfl) : Sim (OffsetForLeaderEpochResponse.overAt v 0 · t0) (OffsetForLeaderEpochResponse.overAt v 1 · t0) _)
    |>.andThen ((.structs (fun _ _ => rfl) fun _ => rfl) : Sim (OffsetForLeaderEpochResponse.overAt v 1 · t0) (OffsetForLeaderEpochResponse.overAt v 2 · t0) _)
theorem OffsetForLeaderEpochResponse.reusable : OffsetForLeaderEpochResponse.reuse.Holds OffsetForLeaderEpochResponse.layout where
  decode v t0 d := by
    have h := OffsetForLeaderEpochResponse.sim v t0 {} d
    have e : OffsetForLeaderEpochResponse.overAt v 0 {} t0 = t0 := by first | rfl | (simp only [OffsetForLeaderEpochResponse.overAt, upto_zero, Option.none_or, ite_self] <;> rfl)
    simp only [e] at h
    exact h
  same v y t0 h := (app_congr (again_opt Wire.int32 y.ThrottleTimeMs t0.ThrottleTimeMs) (same_or fun hn => h (hn)))
  stale v y h := by
    obtain h := h
    · exact ⟨({ Topics := some [{}] } : OffsetForLeaderEpochResponse), (app_ne_right (again_opt Wire.int32 y.ThrottleTimeMs 0) (stale_or h))⟩

/-- The structures of the OffsetForLeaderEpoch messages. -/
def reuseOffsetForLeaderEpoch : List (Σ (M : MsgType) (_ : Layout M), Reuse M) :=
  [⟨OffsetForLeaderEpochRequest.type, OffsetForLeaderEpochRequest.layout, OffsetForLeaderEpochRequest.reuse⟩,
   ⟨OffsetForLeaderTopic23.type, OffsetForLeaderTopic23.layout, OffsetForLeaderTopic23.reuse⟩,
   ⟨OffsetForLeaderPartition23.type, OffsetForLeaderPartition23.layout, OffsetForLeaderPartition23.reuse⟩,
   ⟨OffsetForLeaderEpochResponse.type, OffsetForLeaderEpochResponse.layout, OffsetForLeaderEpochResponse.reuse⟩,
   ⟨OffsetForLeaderTopicResult23.type, OffsetForLeaderTopicResult23.layout, OffsetForLeaderTopicResult23.reuse⟩,
   ⟨OffsetForLeaderPartitionResult23.type, OffsetForLeaderPartitionResult23.layout, OffsetForLeaderPartitionResult23.reuse⟩]
theorem reuseOffsetForLeaderEpoch_holds : ∀ p ∈ reuseOffsetForLeaderEpoch, p.2.2.Holds p.2.1 := by
  unfold reuseOffsetForLeaderEpoch
  simp only [List.forall_mem_cons]
  exact ⟨OffsetForLeaderEpochRequest.reusable, OffsetForLeaderTopic23.reusable, OffsetForLeaderPartition23.reusable, OffsetForLeaderEpochResponse.reusable, OffsetForLeaderTopicResult23.reusable, OffsetForLeaderPartitionResult23.reusable, fun _ h => absurd h (by simp)⟩

end Kafka.Msg
