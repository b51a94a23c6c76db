import Verif.Message.Reuse
import Verif.Gen.Spec.ListOffset
/-!
Generated by tools/gen_messages.py: decoding into ListOffset messages used before.
-/
set_option linter.unusedSimpArgs false
set_option linter.unusedVariables false
namespace Kafka.Msg

/-- What `t0` becomes where a new `ListOffsetPartition2` becomes `y`. -/
def ListOffsetPartition2.over (version : Int16) (y t0 : ListOffsetPartition2) : ListOffsetPartition2 :=
  { PartitionIndex := y.PartitionIndex,
    CurrentLeaderEpoch := if version ≥ 4 then y.CurrentLeaderEpoch else t0.CurrentLeaderEpoch,
    Timestamp := y.Timestamp,
    MaxNumOffsets := if version ≥ 0 ∧ version ≤ 0 then y.MaxNumOffsets else t0.MaxNumOffsets }

/-- An array of structures is nil. -/
def ListOffsetPartition2.Nulls (_version : Int16) (_y : ListOffsetPartition2) : Prop :=
  False

/-- `ListOffsetPartition2` in use again. -/
def ListOffsetPartition2.reuse : Reuse ListOffsetPartition2.type := { over := ListOffsetPartition2.over, Nulls := ListOffsetPartition2.Nulls }

/-- The same after the first `k` statements of `Decode`. -/
def ListOffsetPartition2.overAt (version : Int16) (k : Nat) (y t0 : ListOffsetPartition2) : ListOffsetPartition2 :=
  { PartitionIndex := upto k 0 (y.PartitionIndex) t0.PartitionIndex,
    CurrentLeaderEpoch := upto k 1 (if version ≥ 4 then y.CurrentLeaderEpoch else t0.CurrentLeaderEpoch) t0.CurrentLeaderEpoch,
    Timestamp := upto k 2 (y.Timestamp) t0.Timestamp,
    MaxNumOffsets := upto k 3 (if version ≥ 0 ∧ version ≤ 0 then y.MaxNumOffsets else t0.MaxNumOffsets) t0.MaxNumOffsets }

theorem ListOffsetPartition2.sim (v : Int16) (t0 : ListOffsetPartition2) : Sim (ListOffsetPartition2.overAt v 0 · t0) (ListOffsetPartition2.overAt v 4 · t0) (ListOffsetPartition2.decode v) :=
  ((.field fun _ _ => rfl) : Sim (ListOffsetPartition2.overAt v 0 · t0) (ListOffsetPartition2.overAt v 1 · t0) _)
    |>.andThen ((.onlyIf (fun hc => .field fun _ _ => by simp only [ListOffsetPartition2.overAt, if_pos hc]; rfl) fun hc _ => by simp only [ListOffsetPartition2.overAt, if_neg hc]; rfl) : Sim (ListOffsetPartition2.overAt v 1 · t0) (ListOffsetPartition2.overAt v 2 · t0) _)
    |>.andThen ((.field fun _ _ => rfl) : Sim (ListOffsetPartition2.overAt v 2 · t0) (ListOffsetPartition2.overAt v 3 · t0) _)
    |>.andThen ((.onlyIf (fun hc => .field fun _ _ => by simp only [ListOffsetPartition2.overAt, if_pos hc]; rfl) fun hc _ => by simp only [ListOffsetPartition2.overAt, if_neg hc]; rfl) : Sim (ListOffsetPartition2.overAt v 3 · t0) (ListOffsetPartition2.overAt v 4 · t0) _)
theorem ListOffsetPartition2.reusable : ListOffsetPartition2.reuse.Holds ListOffsetPartition2.layout where
  decode v t0 d := by
    have h := ListOffsetPartition2.sim v t0 {} d
    have e : ListOffsetPartition2.overAt v 0 {} t0 = t0 := by first | rfl | (simp only [ListOffsetPartition2.overAt, upto_zero, Option.none_or, ite_self] <;> rfl)
    simp only [e] at h
    exact h
  same v y t0 h := (app_congr (app_congr (app_congr rfl (again_opt Wire.int32 y.CurrentLeaderEpoch t0.CurrentLeaderEpoch)) rfl) (again_opt Wire.int32 y.MaxNumOffsets t0.MaxNumOffsets))
  stale _ _ h := h.elim

/-- What `t0` becomes where a new `ListOffsetTopic2` becomes `y`. -/
def ListOffsetTopic2.over (_version : Int16) (y t0 : ListOffsetTopic2) : ListOffsetTopic2 :=
  { Name := y.Name,
    Partitions := y.Partitions.or t0.Partitions }

/-- An array of structures is nil. -/
def ListOffsetTopic2.Nulls (_version : Int16) (y : ListOffsetTopic2) : Prop :=
  y.Partitions = none

/-- `ListOffsetTopic2` in use again. -/
def ListOffsetTopic2.reuse : Reuse ListOffsetTopic2.type := { over := ListOffsetTopic2.over, Nulls := ListOffsetTopic2.Nulls }

/-- The same after the first `k` statements of `Decode`. -/
def ListOffsetTopic2.overAt (_version : Int16) (k : Nat) (y t0 : ListOffsetTopic2) : ListOffsetTopic2 :=
  { Name := upto k 0 (y.Name) t0.Name,
    Partitions := y.Partitions.or t0.Partitions }

theorem ListOffsetTopic2.sim (v : Int16) (t0 : ListOffsetTopic2) : Sim (ListOffsetTopic2.overAt v 0 · t0) (ListOffsetTopic2.overAt v 2 · t0) (ListOffsetTopic2.decode v) :=
  ((.field fun _ _ => rfl) : Sim (ListOffsetTopic2.overAt v 0 · t0) (ListOffsetTopic2.overAt v 1 · t0) _)
    |>.andThen ((.structs (fun _ _ => rfl) fun _ => rfl) : Sim (ListOffsetTopic2.overAt v 1 · t0) (ListOffsetTopic2.overAt v 2 · t0) _)
theorem ListOffsetTopic2.reusable : ListOffsetTopic2.reuse.Holds ListOffsetTopic2.layout where
  decode v t0 d := by
    have h := ListOffsetTopic2.sim v t0 {} d
    have e : ListOffsetTopic2.overAt v 0 {} t0 = t0 := by first | rfl | (simp only [ListOffsetTopic2.overAt, upto_zero, Option.none_or, ite_self] <;> rfl)
    simp only [e] at h
    exact h
  same v y t0 h := (app_congr rfl (same_or fun hn => h (hn)))
  stale v y h := by
    obtain h := h
    · exact ⟨({ Partitions := some [{}] } : ListOffsetTopic2), (app_ne_right rfl (stale_or h))⟩

/-- What `t0` becomes where a new `ListOffsetRequest` becomes `y`. -/
def ListOffsetRequest.over (version : Int16) (y t0 : ListOffsetRequest) : ListOffsetRequest :=
  { ReplicaId := y.ReplicaId,
    IsolationLevel := if version ≥ 2 then y.IsolationLevel else t0.IsolationLevel,
    Topics := y.Topics.or t0.Topics }

/-- An array of structures is nil. -/
def ListOffsetRequest.Nulls (_version : Int16) (y : ListOffsetRequest) : Prop :=
  y.Topics = none

/-- `ListOffsetRequest` in use again. -/
def ListOffsetRequest.reuse : Reuse ListOffsetRequest.type := { over := ListOffsetRequest.over, Nulls := ListOffsetRequest.Nulls }

/-- The same after the first `k` statements of `Decode`. -/
def ListOffsetRequest.overAt (version : Int16) (k : Nat) (y t0 : ListOffsetRequest) : ListOffsetRequest :=
  { ReplicaId := upto k 0 (y.ReplicaId) t0.ReplicaId,
    IsolationLevel := upto k 1 (if version ≥ 2 then y.IsolationLevel else t0.IsolationLevel) t0.IsolationLevel,
    Topics := y.Topics.or t0.Topics }

theorem ListOffsetRequest.sim (v : Int16) (t0 : ListOffsetRequest) : Sim (ListOffsetRequest.overAt v 0 · t0) (ListOffsetRequest.overAt v 3 · t0) (ListOffsetRequest.decode v) :=
  ((.field fun _ _ => rfl) : Sim (ListOffsetRequest.overAt v 0 · t0) (ListOffsetRequest.overAt v 1 · t0) _)
    |>.andThen ((.onlyIf (fun hc => .field fun _ _ => by simp only [ListOffsetRequest.overAt, if_pos hc]; rfl) fun hc _ => by simp only [ListOffsetRequest.overAt, if_neg hc]; rfl) : Sim (ListOffsetRequest.overAt v 1 · t0) (ListOffsetRequest.overAt v 2 · t0) _)
    |>.andThen ((.structs (fun _ _ => rfl) fun _ => rfl) : Sim (ListOffsetRequest.overAt v 2 · t0) (ListOffsetRequest.overAt v 3 · t0) _)
theorem ListOffsetRequest.reusable : ListOffsetRequest.reuse.Holds ListOffsetRequest.layout where
  decode v t0 d := by
    have h := ListOffsetRequest.sim v t0 {} d
    have e : ListOffsetRequest.overAt v 0 {} t0 = t0 := by first | rfl | (simp only [ListOffsetRequest.overAt, upto_zero, Option.none_or, ite_self] <;> rfl)
    simp only [e] at h
    exact h
  same v y t0 h := (app_congr (app_congr rfl (again_opt Wire.int8 y.IsolationLevel t0.IsolationLevel)) (same_or fun hn => h (hn)))
  stale v y h := by
    obtain h := h
    · exact ⟨({ Topics := some [{}] } : ListOffsetRequest), (app_ne_right (app_congr rfl (again_opt Wire.int8 y.IsolationLevel 0)) (stale_or h))⟩

/-- What `t0` becomes where a new `ListOffsetPartitionResponse2` becomes `y`. -/
def ListOffsetPartitionResponse2.over (version : Int16) (y t0 : ListOffsetPartitionResponse2) : ListOffsetPartitionResponse2 :=
  { PartitionIndex := y.PartitionIndex,
    ErrorCode := y.ErrorCode,
    OldStyleOffsets := if version ≥ 0 ∧ version ≤ 0 then y.OldStyleOffsets else t0.OldStyleOffsets,
    Timestamp := if version ≥ 1 then y.Timestamp else t0.Timestamp,
    Offset := if version ≥ 1 then y.Offset else t0.Offset,
    LeaderEpoch := if version ≥ 4 then y.LeaderEpoch else t0.LeaderEpoch }

/-- An array of structures is nil. -/
def ListOffsetPartitionResponse2.Nulls (_version : Int16) (_y : ListOffsetPartitionResponse2) : Prop :=
  False

/-- `ListOffsetPartitionResponse2` in use again. -/
def ListOffsetPartitionResponse2.reuse : Reuse ListOffsetPartitionResponse2.type := { over := ListOffsetPartitionResponse2.over, Nulls := ListOffsetPartitionResponse2.Nulls }

/-- The same after the first `k` statements of `Decode`. -/
def ListOffsetPartitionResponse2.overAt (version : Int16) (k : Nat) (y t0 : ListOffsetPartitionResponse2) : ListOffsetPartitionResponse2 :=
  { PartitionIndex := upto k 0 (y.PartitionIndex) t0.PartitionIndex,
    ErrorCode := upto k 1 (y.ErrorCode) t0.ErrorCode,
    OldStyleOffsets := upto k 2 (if version ≥ 0 ∧ version ≤ 0 then y.OldStyleOffsets else t0.OldStyleOffsets) t0.OldStyleOffsets,
    Timestamp := upto k 3 (if version ≥ 1 then y.Timestamp else t0.Timestamp) t0.Timestamp,
    Offset := upto k 4 (if version ≥ 1 then y.Offset else t0.Offset) t0.Offset,
    LeaderEpoch := upto k 5 (if version ≥ 4 then y.LeaderEpoch else t0.LeaderEpoch) t0.LeaderEpoch }

theorem ListOffsetPartitionResponse2.sim (v : Int16) (t0 : ListOffsetPartitionResponse2) : Sim (ListOffsetPartitionResponse2.overAt v 0 · t0) (ListOffsetPartitionResponse2.overAt v 6 · t0) (ListOffsetPartitionResponse2.decode v) :=
  ((.field fun _ _ => rfl) : Sim (ListOffsetPartitionResponse2.overAt v 0 · t0) (ListOffsetPartitionResponse2.overAt v 1 · t0) _)
    |>.andThen ((.field fun _ _ => rfl) : Sim (ListOffsetPartitionResponse2.overAt v 1 · t0) (ListOffsetPartitionResponse2.overAt v 2 · t0) _)
    |>.andThen ((.onlyIf (fun hc => .field fun _ _ => by simp only [ListOffsetPartitionResponse2.overAt, if_pos hc]; rfl) fun hc _ => by simp only [ListOffsetPartitionResponse2.overAt, if_neg hc]; rfl) : Sim (ListOffsetPartitionResponse2.overAt v 2 · t0) (ListOffsetPartitionResponse2.overAt v 3 · t0) _)
    |>.andThen ((.onlyIf (fun hc => .field fun _ _ => by simp only [ListOffsetPartitionResponse2.overAt, if_pos hc]; rfl) fun hc _ => by simp only [ListOffsetPartitionResponse2.overAt, if_neg hc]; rfl) : Sim (ListOffsetPartitionResponse2.overAt v 3 · t0) (ListOffsetPartitionResponse2.overAt v 4 · t0) _)
    |>.andThen ((.onlyIf (fun hc => .field fun _ _ => by simp only [ListOffsetPartitionResponse2.overAt, if_pos hc]; rfl) fun hc _ => by simp only [ListOffsetPartitionResponse2.overAt, if_neg hc]; rfl) : Sim (ListOffsetPartitionResponse2.overAt v 4 · t0) (ListOffsetPartitionResponse2.overAt v 5 · t0) _)
    |>.andThen ((.onlyIf (fun hc => .field fun _ _ => by simp only [ListOffsetPartitionResponse2.overAt, if_pos hc]; rfl) fun hc _ => by simp only [ListOffsetPartitionResponse2.overAt, if_neg hc]; rfl) : Sim (ListOffsetPartitionResponse2.overAt v 5 · t0) (ListOffsetPartitionResponse2.overAt v 6 · t0) _)
theorem ListOffsetPartitionResponse2.reusable : ListOffsetPartitionResponse2.reuse.Holds ListOffsetPartitionResponse2.layout where
  decode v t0 d := by
    have h := ListOffsetPartitionResponse2.sim v t0 {} d
    have e : ListOffsetPartitionResponse2.overAt v 0 {} t0 = t0 := by first | rfl | (simp only [ListOffsetPartitionResponse2.overAt, upto_zero, Option.none_or, ite_self] <;> rfl)
    simp only [e] at h
    exact h
  same v y t0 h := (app_congr (app_congr (app_congr (app_congr (app_congr rfl rfl) (again_opt Wire.int64Array y.OldStyleOffsets t0.OldStyleOffsets)) (again_opt Wire.int64 y.Timestamp t0.Timestamp)) (again_opt Wire.int64 y.Offset t0.Offset)) (again_opt Wire.int32 y.LeaderEpoch t0.LeaderEpoch))
  stale _ _ h := h.elim

/-- What `t0` becomes where a new `ListOffsetTopicResponse2` becomes `y`. -/
def ListOffsetTopicResponse2.over (_version : Int16) (y t0 : ListOffsetTopicResponse2) : ListOffsetTopicResponse2 :=
  { Name := y.Name,
    Partitions := y.Partitions.or t0.Partitions }

/-- An array of structures is nil. -/
def ListOffsetTopicResponse2.Nulls (_version : Int16) (y : ListOffsetTopicResponse2) : Prop :=
  y.Partitions = none

/-- `ListOffsetTopicResponse2` in use again. -/
def ListOffsetTopicResponse2.reuse : Reuse ListOffsetTopicResponse2.type := { over := ListOffsetTopicResponse2.over, Nulls := ListOffsetTopicResponse2.Nulls }

/-- The same after the first `k` statements of `Decode`. -/
def ListOffsetTopicResponse2.overAt (_version : Int16) (k : Nat) (y t0 : ListOffsetTopicResponse2) : ListOffsetTopicResponse2 :=
  { Name := upto k 0 (y.Name) t0.Name,
    Partitions := y.Partitions.or t0.Partitions }

theorem ListOffsetTopicResponse2.sim (v : Int16) (t0 : ListOffsetTopicResponse2) : Sim (ListOffsetTopicResponse2.overAt v 0 · t0) (ListOffsetTopicResponse2.overAt v 2 · t0) (ListOffsetTopicResponse2.decode v) :=
  ((.field fun _ _ => rfl) : Sim (ListOffsetTopicResponse2.overAt v 0 · t0) (ListOffsetTopicResponse2.overAt v 1 · t0) _)
    |>.andThen ((.structs (fun _ _ => rfl) fun _ => rfl) : Sim (ListOffsetTopicResponse2.overAt v 1 · t0) (ListOffsetTopicResponse2.overAt v 2 · t0) _)
theorem ListOffsetTopicResponse2.reusable : ListOffsetTopicResponse2.reuse.Holds ListOffsetTopicResponse2.layout where
  decode v t0 d := by
    have h := ListOffsetTopicResponse2.sim v t0 {} d
    have e : ListOffsetTopicResponse2.overAt v 0 {} t0 = t0 := by first | rfl | (simp only [ListOffsetTopicResponse2.overAt, upto_zero, Option.none_or, ite_self] <;> rfl)
    simp only [e] at h
    exact h
  same v y t0 h := (app_congr rfl (same_or fun hn => h (hn)))
  stale v y h := by
    obtain h := h
    · exact ⟨({ Partitions := some [{}] } : ListOffsetTopicResponse2), (app_ne_right rfl (stale_or h))⟩

/-- What `t0` becomes where a new `ListOffsetResponse` becomes `y`. -/
def ListOffsetResponse.over (version : Int16) (y t0 : ListOffsetResponse) : ListOffsetResponse :=
  { ThrottleTimeMs := if version ≥ 2 then y.ThrottleTimeMs else t0.ThrottleTimeMs,
    Topics := y.Topics.or t0.Topics }

/-- An array of structures is nil. -/
def ListOffsetResponse.Nulls (_version : Int16) (y : ListOffsetResponse) : Prop :=
  y.Topics = none

/-- `ListOffsetResponse` in use again. -/
def ListOffsetResponse.reuse : Reuse ListOffsetResponse.type := { over := ListOffsetResponse.over, Nulls := ListOffsetResponse.Nulls }

/-- The same after the first `k` statements of `Decode`. -/
def ListOffsetResponse.overAt (version : Int16) (k : Nat) (y t0 : ListOffsetResponse) : ListOffsetResponse :=
  { ThrottleTimeMs := upto k 0 (if version ≥ 2 then y.ThrottleTimeMs else t0.ThrottleTimeMs) t0.ThrottleTimeMs,
    Topics := y.Topics.or t0.Topics }

theorem ListOffsetResponse.sim (v : Int16) (t0 : ListOffsetResponse) : Sim (ListOffsetResponse.overAt v 0 · t0) (ListOffsetResponse.overAt v 2 · t0) (ListOffsetResponse.decode v) :=
  ((.onlyIf (fun hc => .field fun _ _ => by simp only [ListOffsetResponse.overAt, if_pos hc]; rfl) fun hc _ => by simp only [ListOffsetResponse.overAt, if_neg hc]; rfl) : Sim (ListOffsetResponse.overAt v 0 · t0) (ListOffsetResponse.overAt v 1 · t0) _)
    |>.andThen ((.structs (fun _ _ => rfl) fun _ => rfl) : Sim (ListOffsetResponse.overAt v 1 · t0) (ListOffsetResponse.overAt v 2 · t0) _)
theorem ListOffsetResponse.reusable : ListOffsetResponse.reuse.Holds ListOffsetResponse.layout where
  decode v t0 d := by
    have h := ListOffsetResponse.sim v t0 {} d
    have e : ListOffsetResponse.overAt v 0 {} t0 = t0 := by first | rfl | (simp only [ListOffsetResponse.overAt, upto_zero, Option.none_or, ite_self] <;> rfl)
    simp only [e] at h
    exact h
  same v y t0 h := (app_congr (again_opt Wire.int32 y.ThrottleTimeMs t0.ThrottleTimeMs) (same_or fun hn => h (hn)))
  stale v y h := by
    obtain h := h
    · exact ⟨({ Topics := some [{}] } : ListOffsetResponse), (app_ne_right (again_opt Wire.int32 y.ThrottleTimeMs 0) (stale_or h))⟩

/-- The structures of the ListOffset messages. -/
def reuseListOffset : List (Σ (M : MsgType) (_ : Layout M), Reuse M) :=
  [⟨ListOffsetRequest.type, ListOffsetRequest.layout, ListOffsetRequest.reuse⟩,
   ⟨ListOffsetTopic2.type, ListOffsetTopic2.layout, ListOffsetTopic2.reuse⟩,
   ⟨ListOffsetPartition2.type, ListOffsetPartition2.layout, ListOffsetPartition2.reuse⟩,
   ⟨ListOffsetResponse.type, ListOffsetResponse.layout, ListOffsetResponse.reuse⟩,
   ⟨ListOffsetTopicResponse2.type, ListOffsetTopicResponse2.layout, ListOffsetTopicResponse2.reuse⟩,
   ⟨ListOffsetPartitionResponse2.type, ListOffsetPartitionResponse2.layout, ListOffsetPartitionResponse2.reuse⟩]
theorem reuseListOffset_holds : ∀ p ∈ reuseListOffset, p.2.2.Holds p.2.1 := by
  unfold reuseListOffset
  simp only [List.forall_mem_cons]
  exact ⟨ListOffsetRequest.reusable, ListOffsetTopic2.reusable, ListOffsetPartition2.reusable, ListOffsetResponse.reusable, ListOffsetTopicResponse2.reusable, ListOffsetPartitionResponse2.reusable, fun _ h => absurd h (by simp)⟩

end Kafka.Msg
