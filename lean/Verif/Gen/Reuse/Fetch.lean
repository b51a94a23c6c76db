import Verif.Message.Reuse
import Verif.Gen.Spec.Fetch
/-!
Generated by tools/gen_messages.py: decoding into Fetch messages used before.
-/
set_option linter.unusedSimpArgs false
set_option linter.unusedVariables false
namespace Kafka.Msg

/-- What `t0` becomes where a new `FetchPartition1` becomes `y`. -/
def FetchPartition1.over (version : Int16) (y t0 : FetchPartition1) : FetchPartition1 :=
  { PartitionIndex := y.PartitionIndex,
    CurrentLeaderEpoch := if version ≥ 9 then y.CurrentLeaderEpoch else t0.CurrentLeaderEpoch,
    FetchOffset := y.FetchOffset,
    LogStartOffset := if version ≥ 5 then y.LogStartOffset else t0.LogStartOffset,
    MaxBytes := y.MaxBytes }

/-- An array of structures is nil. -/
def FetchPartition1.Nulls (_version : Int16) (_y : FetchPartition1) : Prop :=
  False

/-- `FetchPartition1` in use again. -/
def FetchPartition1.reuse : Reuse FetchPartition1.type := { over := FetchPartition1.over, Nulls := FetchPartition1.Nulls }

/-- The same after the first `k` statements of `Decode`. -/
def FetchPartition1.overAt (version : Int16) (k : Nat) (y t0 : FetchPartition1) : FetchPartition1 :=
  { PartitionIndex := upto k 0 (y.PartitionIndex) t0.PartitionIndex,
    CurrentLeaderEpoch := upto k 1 (if version ≥ 9 then y.CurrentLeaderEpoch else t0.CurrentLeaderEpoch) t0.CurrentLeaderEpoch,
    FetchOffset := upto k 2 (y.FetchOffset) t0.FetchOffset,
    LogStartOffset := upto k 3 (if version ≥ 5 then y.LogStartOffset else t0.LogStartOffset) t0.LogStartOffset,
    MaxBytes := upto k 4 (y.MaxBytes) t0.MaxBytes }

theorem FetchPartition1.sim (v : Int16) (t0 : FetchPartition1) : Sim (FetchPartition1.overAt v 0 · t0) (FetchPartition1.overAt v 5 · t0) (FetchPartition1.decode v) :=
  ((.field fun _ _ => rfl) : Sim (FetchPartition1.overAt v 0 · t0) (FetchPartition1.overAt v 1 · t0) _)
    |>.andThen ((.onlyIf (fun hc => .field fun _ _ => by simp only [FetchPartition1.overAt, if_pos hc]; rfl) fun hc _ => by simp only [FetchPartition1.overAt, if_neg hc]; rfl) : Sim (FetchPartition1.overAt v 1 · t0) (FetchPartition1.overAt v 2 · t0) _)
    |>.andThen ((.field fun _ _ => rfl) : Sim (FetchPartition1.overAt v 2 · t0) (FetchPartition1.overAt v 3 · t0) _)
    |>.andThen ((.onlyIf (fun hc => .field fun _ _ => by simp only [FetchPartition1.overAt, if_pos hc]; rfl) fun hc _ => by simp only [FetchPartition1.overAt, if_neg hc]; rfl) : Sim (FetchPartition1.overAt v 3 · t0) (FetchPartition1.overAt v 4 · t0) _)
    |>.andThen ((.field fun _ _ => rfl) : Sim (FetchPartition1.overAt v 4 · t0) (FetchPartition1.overAt v 5 · t0) _)
theorem FetchPartition1.reusable : FetchPartition1.reuse.Holds FetchPartition1.layout where
  decode v t0 d := by
    have h := FetchPartition1.sim v t0 {} d
    have e : FetchPartition1.overAt v 0 {} t0 = t0 := by first | rfl | (simp only [FetchPartition1.overAt, upto_zero, Option.none_or, ite_self] <;> rfl)
    simp only [e] at h
    exact h
  same v y t0 h := (app_congr (app_congr (app_congr (app_congr rfl (again_opt Wire.int32 y.CurrentLeaderEpoch t0.CurrentLeaderEpoch)) rfl) (again_opt Wire.int64 y.LogStartOffset t0.LogStartOffset)) rfl)
  stale _ _ h := h.elim

/-- What `t0` becomes where a new `FetchableTopic1` becomes `y`. -/
def FetchableTopic1.over (_version : Int16) (y t0 : FetchableTopic1) : FetchableTopic1 :=
  { Name := y.Name,
    FetchPartitions := y.FetchPartitions.or t0.FetchPartitions }

/-- An array of structures is nil. -/
def FetchableTopic1.Nulls (_version : Int16) (y : FetchableTopic1) : Prop :=
  y.FetchPartitions = none

/-- `FetchableTopic1` in use again. -/
def FetchableTopic1.reuse : Reuse FetchableTopic1.type := { over := FetchableTopic1.over, Nulls := FetchableTopic1.Nulls }

/-- The same after the first `k` statements of `Decode`. -/
def FetchableTopic1.overAt (_version : Int16) (k : Nat) (y t0 : FetchableTopic1) : FetchableTopic1 :=
  { Name := upto k 0 (y.Name) t0.Name,
    FetchPartitions := y.FetchPartitions.or t0.FetchPartitions }

theorem FetchableTopic1.sim (v : Int16) (t0 : FetchableTopic1) : Sim (FetchableTopic1.overAt v 0 · t0) (FetchableTopic1.overAt v 2 · t0) (FetchableTopic1.decode v) :=
  ((.field fun _ _ => rfl) : Sim (FetchableTopic1.overAt v 0 · t0) (FetchableTopic1.overAt v 1 · t0) _)
    |>.andThen ((.structs (fun _ _ => rfl) fun _ => rfl) : Sim (FetchableTopic1.overAt v 1 · t0) (FetchableTopic1.overAt v 2 · t0) _)
theorem FetchableTopic1.reusable : FetchableTopic1.reuse.Holds FetchableTopic1.layout where
  decode v t0 d := by
    have h := FetchableTopic1.sim v t0 {} d
    have e : FetchableTopic1.overAt v 0 {} t0 = t0 := by first | rfl | (simp only [FetchableTopic1.overAt, upto_zero, Option.none_or, ite_self] <;> rfl)
    simp only [e] at h
    exact h
  same v y t0 h := (app_congr rfl (same_or fun hn => h (hn)))
  stale v y h := by
    obtain h := h
    · exact ⟨({ FetchPartitions := some [{}] } : FetchableTopic1), (app_ne_right rfl (stale_or h))⟩

/-- What `t0` becomes where a new `ForgottenTopic1` becomes `y`. -/
def ForgottenTopic1.over (version : Int16) (y t0 : ForgottenTopic1) : ForgottenTopic1 :=
  { Name := if version ≥ 7 then y.Name else t0.Name,
    ForgottenPartitionIndexes := if version ≥ 7 then y.ForgottenPartitionIndexes else t0.ForgottenPartitionIndexes }

/-- An array of structures is nil. -/
def ForgottenTopic1.Nulls (_version : Int16) (_y : ForgottenTopic1) : Prop :=
  False

/-- `ForgottenTopic1` in use again. -/
def ForgottenTopic1.reuse : Reuse ForgottenTopic1.type := { over := ForgottenTopic1.over, Nulls := ForgottenTopic1.Nulls }

/-- The same after the first `k` statements of `Decode`. -/
def ForgottenTopic1.overAt (version : Int16) (k : Nat) (y t0 : ForgottenTopic1) : ForgottenTopic1 :=
  { Name := upto k 0 (if version ≥ 7 then y.Name else t0.Name) t0.Name,
    ForgottenPartitionIndexes := upto k 1 (if version ≥ 7 then y.ForgottenPartitionIndexes else t0.ForgottenPartitionIndexes) t0.ForgottenPartitionIndexes }

theorem ForgottenTopic1.sim (v : Int16) (t0 : ForgottenTopic1) : Sim (ForgottenTopic1.overAt v 0 · t0) (ForgottenTopic1.overAt v 2 · t0) (ForgottenTopic1.decode v) :=
  ((.onlyIf (fun hc => .field fun _ _ => by simp only [ForgottenTopic1.overAt, if_pos hc]; rfl) fun hc _ => by simp only [ForgottenTopic1.overAt, if_neg hc]; rfl) : Sim (ForgottenTopic1.overAt v 0 · t0) (ForgottenTopic1.overAt v 1 · t0) _)
    |>.andThen ((.onlyIf (fun hc => .field fun _ _ => by simp only [ForgottenTopic1.overAt, if_pos hc]; rfl) fun hc _ => by simp only [ForgottenTopic1.overAt, if_neg hc]; rfl) : Sim (ForgottenTopic1.overAt v 1 · t0) (ForgottenTopic1.overAt v 2 · t0) _)
theorem ForgottenTopic1.reusable : ForgottenTopic1.reuse.Holds ForgottenTopic1.layout where
  decode v t0 d := by
    have h := ForgottenTopic1.sim v t0 {} d
    have e : ForgottenTopic1.overAt v 0 {} t0 = t0 := by first | rfl | (simp only [ForgottenTopic1.overAt, upto_zero, Option.none_or, ite_self] <;> rfl)
    simp only [e] at h
    exact h
  same v y t0 _h := (app_congr (again_opt Wire.string y.Name t0.Name) (again_opt Wire.int32Array y.ForgottenPartitionIndexes t0.ForgottenPartitionIndexes))
  stale _ _ h := h.elim

/-- What `t0` becomes where a new `FetchRequest` becomes `y`. -/
def FetchRequest.over (version : Int16) (y t0 : FetchRequest) : FetchRequest :=
  { ReplicaId := y.ReplicaId,
    MaxWait := y.MaxWait,
    MinBytes := y.MinBytes,
    MaxBytes := if version ≥ 3 then y.MaxBytes else t0.MaxBytes,
    IsolationLevel := if version ≥ 4 then y.IsolationLevel else t0.IsolationLevel,
    SessionId := if version ≥ 7 then y.SessionId else t0.SessionId,
    Epoch := if version ≥ 7 then y.Epoch else t0.Epoch,
    Topics := y.Topics.or t0.Topics,
    Forgotten := if version ≥ 7 then y.Forgotten.or t0.Forgotten else t0.Forgotten,
    RackId := if version ≥ 11 then y.RackId else t0.RackId }

/-- An array of structures is nil. -/
def FetchRequest.Nulls (version : Int16) (y : FetchRequest) : Prop :=
  y.Topics = none ∨ (version ≥ 7) ∧ y.Forgotten = none

/-- `FetchRequest` in use again. -/
def FetchRequest.reuse : Reuse FetchRequest.type := { over := FetchRequest.over, Nulls := FetchRequest.Nulls }

/-- The same after the first `k` statements of `Decode`. -/
def FetchRequest.overAt (version : Int16) (k : Nat) (y t0 : FetchRequest) : FetchRequest :=
  { ReplicaId := upto k 0 (y.ReplicaId) t0.ReplicaId,
    MaxWait := upto k 1 (y.MaxWait) t0.MaxWait,
    MinBytes := upto k 2 (y.MinBytes) t0.MinBytes,
    MaxBytes := upto k 3 (if version ≥ 3 then y.MaxBytes else t0.MaxBytes) t0.MaxBytes,
    IsolationLevel := upto k 4 (if version ≥ 4 then y.IsolationLevel else t0.IsolationLevel) t0.IsolationLevel,
    SessionId := upto k 5 (if version ≥ 7 then y.SessionId else t0.SessionId) t0.SessionId,
    Epoch := upto k 6 (if version ≥ 7 then y.Epoch else t0.Epoch) t0.Epoch,
    Topics := y.Topics.or t0.Topics,
    Forgotten := if version ≥ 7 then y.Forgotten.or t0.Forgotten else t0.Forgotten,
    RackId := upto k 9 (if version ≥ 11 then y.RackId else t0.RackId) t0.RackId }

theorem FetchRequest.sim (v : Int16) (t0 : FetchRequest) : Sim (FetchRequest.overAt v 0 · t0) (FetchRequest.overAt v 10 · t0) (FetchRequest.decode v) :=
  ((.field fun _ _ => rfl) : Sim (FetchRequest.overAt v 0 · t0) (FetchRequest.overAt v 1 · t0) _)
    |>.andThen ((.field fun _ _ => rfl) : Sim (FetchRequest.overAt v 1 · t0) (FetchRequest.overAt v 2 · t0) _)
    |>.andThen ((.field fun _ _ => rfl) : Sim (FetchRequest.overAt v 2 · t0) (FetchRequest.overAt v 3 · t0) _)
    |>.andThen ((.onlyIf (fun hc => .field fun _ _ => by simp only [FetchRequest.overAt, if_pos hc]; rfl) fun hc _ => by simp only [FetchRequest.overAt, if_neg hc]; rfl) : Sim (FetchRequest.overAt v 3 · t0) (FetchRequest.overAt v 4 · t0) _)
    |>.andThen ((.onlyIf (fun hc => .field fun _ _ => by simp only [FetchRequest.overAt, if_pos hc]; rfl) fun hc _ => by simp only [FetchRequest.overAt, if_neg hc]; rfl) : Sim (FetchRequest.overAt v 4 · t0) (FetchRequest.overAt v 5 · t0) _)
    |>.andThen ((.onlyIf (fun hc => .field fun _ _ => by simp only [FetchRequest.overAt, if_pos hc]; rfl) fun hc _ => by simp only [FetchRequest.overAt, if_neg hc]; rfl) : Sim (FetchRequest.overAt v 5 · t0) (FetchRequest.overAt v 6 · t0) _)
    |>.andThen ((.onlyIf (fun hc => .field fun _ _ => by simp only [FetchRequest.overAt, if_pos hc]; rfl) fun hc _ => by simp only [FetchRequest.overAt, if_neg hc]; rfl) : Sim (FetchRequest.overAt v 6 · t0) (FetchRequest.overAt v 7 · t0) _)
    |>.andThen ((.structs (fun _ _ => rfl) fun _ => rfl) : Sim (FetchRequest.overAt v 7 · t0) (FetchRequest.overAt v 8 · t0) _)
    |>.andThen ((.onlyIf (fun hc => .structs (fun _ _ => by simp only [FetchRequest.overAt, if_pos hc]; rfl) fun _ => by simp only [FetchRequest.overAt, if_pos hc]; rfl) fun hc _ => by simp only [FetchRequest.overAt, if_neg hc]; rfl) : Sim (FetchRequest.overAt v 8 · t0) (FetchRequest.overAt v 9 · t0) _)
    |>.andThen ((.onlyIf (fun hc => .field fun _ _ => by simp only [FetchRequest.overAt, if_pos hc]; rfl) fun hc _ => by simp only [FetchRequest.overAt, if_neg hc]; rfl) : Sim (FetchRequest.overAt v 9 · t0) (FetchRequest.overAt v 10 · t0) _)
theorem FetchRequest.reusable : FetchRequest.reuse.Holds FetchRequest.layout where
  decode v t0 d := by
    have h := FetchRequest.sim v t0 {} d
    have e : FetchRequest.overAt v 0 {} t0 = t0 := by first | rfl | (simp only [FetchRequest.overAt, upto_zero, Option.none_or, ite_self] <;> rfl)
    simp only [e] at h
    exact h
  same v y t0 h := (app_congr (app_congr (app_congr (app_congr (app_congr (app_congr (app_congr (app_congr (app_congr rfl rfl) rfl) (again_opt Wire.int32 y.MaxBytes t0.MaxBytes)) (again_opt Wire.int8 y.IsolationLevel t0.IsolationLevel)) (again_opt Wire.int32 y.SessionId t0.SessionId)) (again_opt Wire.int32 y.Epoch t0.Epoch)) (same_or fun hn => h (Or.inl hn))) (same_when fun hc hn => h (Or.inr (⟨hc, hn⟩)))) (again_opt Wire.string y.RackId t0.RackId))
  stale v y h := by
    obtain h | ⟨hc, h⟩ := h
    · exact ⟨({ Topics := some [{}] } : FetchRequest), (app_ne_left (app_ne_left (app_ne_right (app_congr (app_congr (app_congr (app_congr (app_congr (app_congr rfl rfl) rfl) (again_opt Wire.int32 y.MaxBytes 0)) (again_opt Wire.int8 y.IsolationLevel 0)) (again_opt Wire.int32 y.SessionId 0)) (again_opt Wire.int32 y.Epoch 0)) (stale_or h)) none_when) (again_opt Wire.string y.RackId []))⟩
    · exact ⟨({ Forgotten := some [{}] } : FetchRequest), (app_ne_left (app_ne_right (app_congr (app_congr (app_congr (app_congr (app_congr (app_congr (app_congr rfl rfl) rfl) (again_opt Wire.int32 y.MaxBytes 0)) (again_opt Wire.int8 y.IsolationLevel 0)) (again_opt Wire.int32 y.SessionId 0)) (again_opt Wire.int32 y.Epoch 0)) none_or) (stale_when hc h)) (again_opt Wire.string y.RackId []))⟩

/-- What `t0` becomes where a new `AbortedTransaction1` becomes `y`. -/
def AbortedTransaction1.over (version : Int16) (y t0 : AbortedTransaction1) : AbortedTransaction1 :=
  { ProducerId := if version ≥ 4 then y.ProducerId else t0.ProducerId,
    FirstOffset := if version ≥ 4 then y.FirstOffset else t0.FirstOffset }

/-- An array of structures is nil. -/
def AbortedTransaction1.Nulls (_version : Int16) (_y : AbortedTransaction1) : Prop :=
  False

/-- `AbortedTransaction1` in use again. -/
def AbortedTransaction1.reuse : Reuse AbortedTransaction1.type := { over := AbortedTransaction1.over, Nulls := AbortedTransaction1.Nulls }

/-- The same after the first `k` statements of `Decode`. -/
def AbortedTransaction1.overAt (version : Int16) (k : Nat) (y t0 : AbortedTransaction1) : AbortedTransaction1 :=
  { ProducerId := upto k 0 (if version ≥ 4 then y.ProducerId else t0.ProducerId) t0.ProducerId,
    FirstOffset := upto k 1 (if version ≥ 4 then y.FirstOffset else t0.FirstOffset) t0.FirstOffset }

theorem AbortedTransaction1.sim (v : Int16) (t0 : AbortedTransaction1) : Sim (AbortedTransaction1.overAt v 0 · t0) (AbortedTransaction1.overAt v 2 · t0) (AbortedTransaction1.decode v) :=
  ((.onlyIf (fun hc => .field fun _ _ => by simp only [AbortedTransaction1.overAt, if_pos hc]; rfl) fun hc _ => by simp only [AbortedTransaction1.overAt, if_neg hc]; rfl) : Sim (AbortedTransaction1.overAt v 0 · t0) (AbortedTransaction1.overAt v 1 · t0) _)
    |>.andThen ((.onlyIf (fun hc => .field fun _ _ => by simp only [AbortedTransaction1.overAt, if_pos hc]; rfl) fun hc _ => by simp only [AbortedTransaction1.overAt, if_neg hc]; rfl) : Sim (AbortedTransaction1.overAt v 1 · t0) (AbortedTransaction1.overAt v 2 · t0) _)
theorem AbortedTransaction1.reusable : AbortedTransaction1.reuse.Holds AbortedTransaction1.layout where
  decode v t0 d := by
    have h := AbortedTransaction1.sim v t0 {} d
    have e : AbortedTransaction1.overAt v 0 {} t0 = t0 := by first | rfl | (simp only [AbortedTransaction1.overAt, upto_zero, Option.none_or, ite_self] <;> rfl)
    simp only [e] at h
    exact h
  same v y t0 _h := (app_congr (again_opt Wire.int64 y.ProducerId t0.ProducerId) (again_opt Wire.int64 y.FirstOffset t0.FirstOffset))
  stale _ _ h := h.elim

/-- What `t0` becomes where a new `FetchablePartitionResponse1` becomes `y`. -/
def FetchablePartitionResponse1.over (version : Int16) (y t0 : FetchablePartitionResponse1) : FetchablePartitionResponse1 :=
  { PartitionIndex := y.PartitionIndex,
    ErrorCode := y.ErrorCode,
    HighWatermark := y.HighWatermark,
    LastStableOffset := if version ≥ 4 then y.LastStableOffset else t0.LastStableOffset,
    LogStartOffset := if version ≥ 5 then y.LogStartOffset else t0.LogStartOffset,
    Aborted := if version ≥ 4 then y.Aborted.or t0.Aborted else t0.Aborted,
    PreferredReadReplica := if version ≥ 11 then y.PreferredReadReplica else t0.PreferredReadReplica,
    Records := y.Records }

/-- An array of structures is nil. -/
def FetchablePartitionResponse1.Nulls (version : Int16) (y : FetchablePartitionResponse1) : Prop :=
  (version ≥ 4) ∧ y.Aborted = none

/-- `FetchablePartitionResponse1` in use again. -/
def FetchablePartitionResponse1.reuse : Reuse FetchablePartitionResponse1.type := { over := FetchablePartitionResponse1.over, Nulls := FetchablePartitionResponse1.Nulls }

/-- The same after the first `k` statements of `Decode`. -/
def FetchablePartitionResponse1.overAt (version : Int16) (k : Nat) (y t0 : FetchablePartitionResponse1) : FetchablePartitionResponse1 :=
  { PartitionIndex := upto k 0 (y.PartitionIndex) t0.PartitionIndex,
    ErrorCode := upto k 1 (y.ErrorCode) t0.ErrorCode,
    HighWatermark := upto k 2 (y.HighWatermark) t0.HighWatermark,
    LastStableOffset := upto k 3 (if version ≥ 4 then y.LastStableOffset else t0.LastStableOffset) t0.LastStableOffset,
    LogStartOffset := upto k 4 (if version ≥ 5 then y.LogStartOffset else t0.LogStartOffset) t0.LogStartOffset,
    Aborted := if version ≥ 4 then y.Aborted.or t0.Aborted else t0.Aborted,
    PreferredReadReplica := upto k 6 (if version ≥ 11 then y.PreferredReadReplica else t0.PreferredReadReplica) t0.PreferredReadReplica,
    Records := upto k 7 (y.Records) t0.Records }

theorem FetchablePartitionResponse1.sim (v : Int16) (t0 : FetchablePartitionResponse1) : Sim (FetchablePartitionResponse1.overAt v 0 · t0) (FetchablePartitionResponse1.overAt v 8 · t0) (FetchablePartitionResponse1.decode v) :=
  ((.field fun _ _ => rfl) : Sim (FetchablePartitionResponse1.overAt v 0 · t0) (FetchablePartitionResponse1.overAt v 1 · t0) _)
    |>.andThen ((.field fun _ _ => rfl) : Sim (FetchablePartitionResponse1.overAt v 1 · t0) (FetchablePartitionResponse1.overAt v 2 · t0) _)
    |>.andThen ((.field fun _ _ => rfl) : Sim (FetchablePartitionResponse1.overAt v 2 · t0) (FetchablePartitionResponse1.overAt v 3 · t0) _)
    |>.andThen ((.onlyIf (fun hc => .field fun _ _ => by simp only [FetchablePartitionResponse1.overAt, if_pos hc]; rfl) fun hc _ => by simp only [FetchablePartitionResponse1.overAt, if_neg hc]; rfl) : Sim (FetchablePartitionResponse1.overAt v 3 · t0) (FetchablePartitionResponse1.overAt v 4 · t0) _)
    |>.andThen ((.onlyIf (fun hc => .field fun _ _ => by simp only [FetchablePartitionResponse1.overAt, if_pos hc]; rfl) fun hc _ => by simp only [FetchablePartitionResponse1.overAt, if_neg hc]; rfl) : Sim (FetchablePartitionResponse1.overAt v 4 · t0) (FetchablePartitionResponse1.overAt v 5 · t0) _)
    |>.andThen ((.onlyIf (fun hc => .structs (fun _ _ => by simp only [FetchablePartitionResponse1.overAt, if_pos hc]; rfl) fun _ => by simp only [FetchablePartitionResponse1.overAt, if_pos hc]; rfl) fun hc _ => by simp only [FetchablePartitionResponse1.overAt, if_neg hc]; rfl) : Sim (FetchablePartitionResponse1.overAt v 5 · t0) (FetchablePartitionResponse1.overAt v 6 · t0) _)
    |>.andThen ((.onlyIf (fun hc => .field fun _ _ => by simp only [FetchablePartitionResponse1.overAt, if_pos hc]; rfl) fun hc _ => by simp only [FetchablePartitionResponse1.overAt, if_neg hc]; rfl) : Sim (FetchablePartitionResponse1.overAt v 6 · t0) (FetchablePartitionResponse1.overAt v 7 · t0) _)
    |>.andThen ((.field fun _ _ => rfl) : Sim (FetchablePartitionResponse1.overAt v 7 · t0) (FetchablePartitionResponse1.overAt v 8 · t0) _)
theorem FetchablePartitionResponse1.reusable : FetchablePartitionResponse1.reuse.Holds FetchablePartitionResponse1.layout where
  decode v t0 d := by
    have h := FetchablePartitionResponse1.sim v t0 {} d
    have e : FetchablePartitionResponse1.overAt v 0 {} t0 = t0 := by first | rfl | (simp only [FetchablePartitionResponse1.overAt, upto_zero, Option.none_or, ite_self] <;> rfl)
    simp only [e] at h
    exact h
  same v y t0 h := (app_congr (app_congr (app_congr (app_congr (app_congr (app_congr (app_congr rfl rfl) rfl) (again_opt Wire.int64 y.LastStableOffset t0.LastStableOffset)) (again_opt Wire.int64 y.LogStartOffset t0.LogStartOffset)) (same_when fun hc hn => h (⟨hc, hn⟩))) (again_opt Wire.int32 y.PreferredReadReplica t0.PreferredReadReplica)) rfl)
  stale v y h := by
    obtain ⟨hc, h⟩ := h
    · exact ⟨({ Aborted := some [{}] } : FetchablePartitionResponse1), (app_ne_left (app_ne_left (app_ne_right (app_congr (app_congr (app_congr (app_congr rfl rfl) rfl) (again_opt Wire.int64 y.LastStableOffset 0)) (again_opt Wire.int64 y.LogStartOffset 0)) (stale_when hc h)) (again_opt Wire.int32 y.PreferredReadReplica 0)) rfl)⟩

/-- What `t0` becomes where a new `FetchableTopicResponse1` becomes `y`. -/
def FetchableTopicResponse1.over (_version : Int16) (y t0 : FetchableTopicResponse1) : FetchableTopicResponse1 :=
  { Name := y.Name,
    Partitions := y.Partitions.or t0.Partitions }

/-- An array of structures is nil. -/
def FetchableTopicResponse1.Nulls (_version : Int16) (y : FetchableTopicResponse1) : Prop :=
  y.Partitions = none

/-- `FetchableTopicResponse1` in use again. -/
def FetchableTopicResponse1.reuse : Reuse FetchableTopicResponse1.type := { over := FetchableTopicResponse1.over, Nulls := FetchableTopicResponse1.Nulls }

/-- The same after the first `k` statements of `Decode`. -/
def FetchableTopicResponse1.overAt (_version : Int16) (k : Nat) (y t0 : FetchableTopicResponse1) : FetchableTopicResponse1 :=
  { Name := upto k 0 (y.Name) t0.Name,
    Partitions := y.Partitions.or t0.Partitions }

theorem FetchableTopicResponse1.sim (v : Int16) (t0 : FetchableTopicResponse1) : Sim (FetchableTopicResponse1.overAt v 0 · t0) (FetchableTopicResponse1.overAt v 2 · t0) (FetchableTopicResponse1.decode v) :=
  ((.field fun _ _ => rfl) : Sim (FetchableTopicResponse1.overAt v 0 · t0) (FetchableTopicResponse1.overAt v 1 · t0) _)
    |>.andThen ((.structs (fun _ _ => rfl) fun _ => rfl) : Sim (FetchableTopicResponse1.overAt v 1 · t0) (FetchableTopicResponse1.overAt v 2 · t0) _)
theorem FetchableTopicResponse1.reusable : FetchableTopicResponse1.reuse.Holds FetchableTopicResponse1.layout where
  decode v t0 d := by
    have h := FetchableTopicResponse1.sim v t0 {} d
    have e : FetchableTopicResponse1.overAt v 0 {} t0 = t0 := by first | rfl | (simp only [FetchableTopicResponse1.overAt, upto_zero, Option.none_or, ite_self] <;> rfl)
    simp only [e] at h
    exact h
  same v y t0 h := (app_congr rfl (same_or fun hn => h (hn)))
  stale v y h := by
    obtain h := h
    · exact ⟨({ Partitions := some [{}] } : FetchableTopicResponse1), (app_ne_right rfl (stale_or h))⟩

/-- What `t0` becomes where a new `FetchResponse` becomes `y`. -/
def FetchResponse.over (version : Int16) (y t0 : FetchResponse) : FetchResponse :=
  { ThrottleTimeMs := if version ≥ 1 then y.ThrottleTimeMs else t0.ThrottleTimeMs,
    ErrorCode := if version ≥ 7 then y.ErrorCode else t0.ErrorCode,
    SessionId := if version ≥ 7 then y.SessionId else t0.SessionId,
    Topics := y.Topics.or t0.Topics }

/-- An array of structures is nil. -/
def FetchResponse.Nulls (_version : Int16) (y : FetchResponse) : Prop :=
  y.Topics = none

/-- `FetchResponse` in use again. -/
def FetchResponse.reuse : Reuse FetchResponse.type := { over := FetchResponse.over, Nulls := FetchResponse.Nulls }

/-- The same after the first `k` statements of `Decode`. -/
def FetchResponse.overAt (version : Int16) (k : Nat) (y t0 : FetchResponse) : FetchResponse :=
  { ThrottleTimeMs := upto k 0 (if version ≥ 1 then y.ThrottleTimeMs else t0.ThrottleTimeMs) t0.ThrottleTimeMs,
    ErrorCode := upto k 1 (if version ≥ 7 then y.ErrorCode else t0.ErrorCode) t0.ErrorCode,
    SessionId := upto k 2 (if version ≥ 7 then y.SessionId else t0.SessionId) t0.SessionId,
    Topics := y.Topics.or t0.Topics }

theorem FetchResponse.sim (v : Int16) (t0 : FetchResponse) : Sim (FetchResponse.overAt v 0 · t0) (FetchResponse.overAt v 4 · t0) (FetchResponse.decode v) :=
  ((.onlyIf (fun hc => .field fun _ _ => by simp only [FetchResponse.overAt, if_pos hc]; rfl) fun hc _ => by simp only [FetchResponse.overAt, if_neg hc]; rfl) : Sim (FetchResponse.overAt v 0 · t0) (FetchResponse.overAt v 1 · t0) _)
    |>.andThen ((.onlyIf (fun hc => .field fun _ _ => by simp only [FetchResponse.overAt, if_pos hc]; rfl) fun hc _ => by simp only [FetchResponse.overAt, if_neg hc]; rfl) : Sim (FetchResponse.overAt v 1 · t0) (FetchResponse.overAt v 2 · t0) _)
    |>.andThen ((.onlyIf (fun hc => .field fun _ _ => by simp only [FetchResponse.overAt, if_pos hc]; rfl) fun hc _ => by simp only [FetchResponse.overAt, if_neg hc]; rfl) : Sim (FetchResponse.overAt v 2 · t0) (FetchResponse.overAt v 3 · t0) _)
    |>.andThen ((.structs (fun _ _ => rfl) fun _ => rfl) : Sim (FetchResponse.overAt v 3 · t0) (FetchResponse.overAt v 4 · t0) _)
theorem FetchResponse.reusable : FetchResponse.reuse.Holds FetchResponse.layout where
  decode v t0 d := by
    have h := FetchResponse.sim v t0 {} d
    have e : FetchResponse.overAt v 0 {} t0 = t0 := by first | rfl | (simp only [FetchResponse.overAt, upto_zero, Option.none_or, ite_self] <;> rfl)
    simp only [e] at h
    exact h
  same v y t0 h := (app_congr (app_congr (app_congr (again_opt Wire.int32 y.ThrottleTimeMs t0.ThrottleTimeMs) (again_opt Wire.int16 y.ErrorCode t0.ErrorCode)) (again_opt Wire.int32 y.SessionId t0.SessionId)) (same_or fun hn => h (hn)))
  stale v y h := by
    obtain h := h
    · exact ⟨({ Topics := some [{}] } : FetchResponse), (app_ne_right (app_congr (app_congr (again_opt Wire.int32 y.ThrottleTimeMs 0) (again_opt Wire.int16 y.ErrorCode 0)) (again_opt Wire.int32 y.SessionId 0)) (stale_or h))⟩

/-- The structures of the Fetch messages. -/
def reuseFetch : List (Σ (M : MsgType) (_ : Layout M), Reuse M) :=
  [⟨FetchRequest.type, FetchRequest.layout, FetchRequest.reuse⟩,
   ⟨FetchableTopic1.type, FetchableTopic1.layout, FetchableTopic1.reuse⟩,
   ⟨FetchPartition1.type, FetchPartition1.layout, FetchPartition1.reuse⟩,
   ⟨ForgottenTopic1.type, ForgottenTopic1.layout, ForgottenTopic1.reuse⟩,
   ⟨FetchResponse.type, FetchResponse.layout, FetchResponse.reuse⟩,
   ⟨FetchableTopicResponse1.type, FetchableTopicResponse1.layout, FetchableTopicResponse1.reuse⟩,
   ⟨FetchablePartitionResponse1.type, FetchablePartitionResponse1.layout, FetchablePartitionResponse1.reuse⟩,
   ⟨AbortedTransaction1.type, AbortedTransaction1.layout, AbortedTransaction1.reuse⟩]
theorem reuseFetch_holds : ∀ p ∈ reuseFetch, p.2.2.Holds p.2.1 := by
  unfold reuseFetch
  simp only [List.forall_mem_cons]
  exact ⟨FetchRequest.reusable, FetchableTopic1.reusable, FetchPartition1.reusable, ForgottenTopic1.reusable, FetchResponse.reusable, FetchableTopicResponse1.reusable, FetchablePartitionResponse1.reusable, AbortedTransaction1.reusable, fun _ h => absurd h (by simp)⟩

end Kafka.Msg
