import Verif.Message.Reuse
import Verif.Gen.Spec.OffsetCommit
/-!
Generated by tools/gen_messages.py: decoding into OffsetCommit messages used before.
-/
set_option linter.unusedSimpArgs false
set_option linter.unusedVariables false
namespace Kafka.Msg

/-- What `t0` becomes where a new `OffsetCommitRequestPartition8` becomes `y`. -/
def OffsetCommitRequestPartition8.over (version : Int16) (y t0 : OffsetCommitRequestPartition8) : OffsetCommitRequestPartition8 :=
  { PartitionIndex := y.PartitionIndex,
    CommittedOffset := y.CommittedOffset,
    CommittedLeaderEpoch := if version ≥ 6 then y.CommittedLeaderEpoch else t0.CommittedLeaderEpoch,
    CommittedMetadata := y.CommittedMetadata }

/-- An array of structures is nil. -/
def OffsetCommitRequestPartition8.Nulls (_version : Int16) (_y : OffsetCommitRequestPartition8) : Prop :=
  False

/-- `OffsetCommitRequestPartition8` in use again. -/
def OffsetCommitRequestPartition8.reuse : Reuse OffsetCommitRequestPartition8.type := { over := OffsetCommitRequestPartition8.over, Nulls := OffsetCommitRequestPartition8.Nulls }

/-- The same after the first `k` statements of `Decode`. -/
def OffsetCommitRequestPartition8.overAt (version : Int16) (k : Nat) (y t0 : OffsetCommitRequestPartition8) : OffsetCommitRequestPartition8 :=
  { PartitionIndex := upto k 0 (y.PartitionIndex) t0.PartitionIndex,
    CommittedOffset := upto k 1 (y.CommittedOffset) t0.CommittedOffset,
    CommittedLeaderEpoch := upto k 2 (if version ≥ 6 then y.CommittedLeaderEpoch else t0.CommittedLeaderEpoch) t0.CommittedLeaderEpoch,
    CommittedMetadata := upto k 3 (y.CommittedMetadata) t0.CommittedMetadata }

theorem OffsetCommitRequestPartition8.sim (v : Int16) (t0 : OffsetCommitRequestPartition8) : Sim (OffsetCommitRequestPartition8.overAt v 0 · t0) (OffsetCommitRequestPartition8.overAt v 4 · t0) (OffsetCommitRequestPartition8.decode v) :=
  ((.field fun _ _ => rfl) : Sim (OffsetCommitRequestPartition8.overAt v 0 · t0) (OffsetCommitRequestPartition8.overAt v 1 · t0) _)
    |>.andThen ((.field fun _ _ => rfl) : Sim (OffsetCommitRequestPartition8.overAt v 1 · t0) (OffsetCommitRequestPartition8.overAt v 2 · t0) _)
    |>.andThen ((.onlyIf (fun hc => .field fun _ _ => by simp only [OffsetCommitRequestPartition8.overAt, if_pos hc]; rfl) fun hc _ => by simp only [OffsetCommitRequestPartition8.overAt, if_neg hc]; rfl) : Sim (OffsetCommitRequestPartition8.overAt v 2 · t0) (OffsetCommitRequestPartition8.overAt v 3 · t0) _)
    |>.andThen ((.field fun _ _ => rfl) : Sim (OffsetCommitRequestPartition8.overAt v 3 · t0) (OffsetCommitRequestPartition8.overAt v 4 · t0) _)
theorem OffsetCommitRequestPartition8.reusable : OffsetCommitRequestPartition8.reuse.Holds OffsetCommitRequestPartition8.layout where
  decode v t0 d := by
    have h := OffsetCommitRequestPartition8.sim v t0 {} d
    have e : OffsetCommitRequestPartition8.overAt v 0 {} t0 = t0 := by first | rfl | (simp only [OffsetCommitRequestPartition8.overAt, upto_zero, Option.none_or, ite_self] <;> rfl)
    simp only [e] at h
    exact h
  same v y t0 h := (app_congr (app_congr (app_congr rfl rfl) (again_opt Wire.int32 y.CommittedLeaderEpoch t0.CommittedLeaderEpoch)) rfl)
  stale _ _ h := h.elim

/-- What `t0` becomes where a new `OffsetCommitRequestTopic8` becomes `y`. -/
def OffsetCommitRequestTopic8.over (_version : Int16) (y t0 : OffsetCommitRequestTopic8) : OffsetCommitRequestTopic8 :=
  { Name := y.Name,
    Partitions := y.Partitions.or t0.Partitions }

/-- An array of structures is nil. -/
def OffsetCommitRequestTopic8.Nulls (_version : Int16) (y : OffsetCommitRequestTopic8) : Prop :=
  y.Partitions = none

/-- `OffsetCommitRequestTopic8` in use again. -/
def OffsetCommitRequestTopic8.reuse : Reuse OffsetCommitRequestTopic8.type := { over := OffsetCommitRequestTopic8.over, Nulls := OffsetCommitRequestTopic8.Nulls }

/-- The same after the first `k` statements of `Decode`. -/
def OffsetCommitRequestTopic8.overAt (_version : Int16) (k : Nat) (y t0 : OffsetCommitRequestTopic8) : OffsetCommitRequestTopic8 :=
  { Name := upto k 0 (y.Name) t0.Name,
    Partitions := y.Partitions.or t0.Partitions }

theorem OffsetCommitRequestTopic8.sim (v : Int16) (t0 : OffsetCommitRequestTopic8) : Sim (OffsetCommitRequestTopic8.overAt v 0 · t0) (OffsetCommitRequestTopic8.overAt v 2 · t0) (OffsetCommitRequestTopic8.decode v) :=
  ((.field fun _ _ => rfl) : Sim (OffsetCommitRequestTopic8.overAt v 0 · t0) (OffsetCommitRequestTopic8.overAt v 1 · t0) _)
    |>.andThen ((.structs (fun _ _ => rfl) fun _ => rfl) : Sim (OffsetCommitRequestTopic8.overAt v 1 · t0) (OffsetCommitRequestTopic8.overAt v 2 · t0) _)
theorem OffsetCommitRequestTopic8.reusable : OffsetCommitRequestTopic8.reuse.Holds OffsetCommitRequestTopic8.layout where
  decode v t0 d := by
    have h := OffsetCommitRequestTopic8.sim v t0 {} d
    have e : OffsetCommitRequestTopic8.overAt v 0 {} t0 = t0 := by first | rfl | (simp only [OffsetCommitRequestTopic8.overAt, upto_zero, Option.none_or, ite_self] <;> rfl)
    simp only [e] at h
    exact h
  same v y t0 h := (app_congr rfl (same_or fun hn => h (hn)))
  stale v y h := by
    obtain h := h
    · exact ⟨({ Partitions := some [{}] } : OffsetCommitRequestTopic8), (app_ne_right rfl (stale_or h))⟩

/-- What `t0` becomes where a new `OffsetCommitRequest` becomes `y`. -/
def OffsetCommitRequest.over (version : Int16) (y t0 : OffsetCommitRequest) : OffsetCommitRequest :=
  { GroupId := y.GroupId,
    GenerationId := if version ≥ 1 then y.GenerationId else t0.GenerationId,
    MemberId := if version ≥ 1 then y.MemberId else t0.MemberId,
    GroupInstanceId := if version ≥ 7 then y.GroupInstanceId else t0.GroupInstanceId,
    RetentionTimeMs := if version ≥ 2 ∧ version ≤ 4 then y.RetentionTimeMs else t0.RetentionTimeMs,
    Topics := y.Topics.or t0.Topics }

/-- An array of structures is nil. -/
def OffsetCommitRequest.Nulls (_version : Int16) (y : OffsetCommitRequest) : Prop :=
  y.Topics = none

/-- `OffsetCommitRequest` in use again. -/
def OffsetCommitRequest.reuse : Reuse OffsetCommitRequest.type := { over := OffsetCommitRequest.over, Nulls := OffsetCommitRequest.Nulls }

/-- The same after the first `k` statements of `Decode`. -/
def OffsetCommitRequest.overAt (version : Int16) (k : Nat) (y t0 : OffsetCommitRequest) : OffsetCommitRequest :=
  { GroupId := upto k 0 (y.GroupId) t0.GroupId,
    GenerationId := upto k 1 (if version ≥ 1 then y.GenerationId else t0.GenerationId) t0.GenerationId,
    MemberId := upto k 2 (if version ≥ 1 then y.MemberId else t0.MemberId) t0.MemberId,
    GroupInstanceId := upto k 3 (if version ≥ 7 then y.GroupInstanceId else t0.GroupInstanceId) t0.GroupInstanceId,
    RetentionTimeMs := upto k 4 (if version ≥ 2 ∧ version ≤ 4 then y.RetentionTimeMs else t0.RetentionTimeMs) t0.RetentionTimeMs,
    Topics := y.Topics.or t0.Topics }

theorem OffsetCommitRequest.sim (v : Int16) (t0 : OffsetCommitRequest) : Sim (OffsetCommitRequest.overAt v 0 · t0) (OffsetCommitRequest.overAt v 6 · t0) (OffsetCommitRequest.decode v) :=
  ((.field fun _ _ => rfl) : Sim (OffsetCommitRequest.overAt v 0 · t0) (OffsetCommitRequest.overAt v 1 · t0) _)
    |>.andThen ((.onlyIf (fun hc => .field fun _ _ => by simp only [OffsetCommitRequest.overAt, if_pos hc]; rfl) fun hc _ => by simp only [OffsetCommitRequest.overAt, if_neg hc]; rfl) : Sim (OffsetCommitRequest.overAt v 1 · t0) (OffsetCommitRequest.overAt v 2 · t0) _)
    |>.andThen ((.onlyIf (fun hc => .field fun _ _ => by simp only [OffsetCommitRequest.overAt, if_pos hc]; rfl) fun hc _ => by simp only [OffsetCommitRequest.overAt, if_neg hc]; rfl) : Sim (OffsetCommitRequest.overAt v 2 · t0) (OffsetCommitRequest.overAt v 3 · t0) _)
    |>.andThen ((.onlyIf (fun hc => .field fun _ _ => by simp only [OffsetCommitRequest.overAt, if_pos hc]; rfl) fun hc _ => by simp only [OffsetCommitRequest.overAt, if_neg hc]; rfl) : Sim (OffsetCommitRequest.overAt v 3 · t0) (OffsetCommitRequest.overAt v 4 · t0) _)
    |>.andThen ((.onlyIf (fun hc => .field fun _ _ => by simp only [OffsetCommitRequest.overAt, if_pos hc]; rfl) fun hc _ => by simp only [OffsetCommitRequest.overAt, if_neg hc]; rfl) : Sim (OffsetCommitRequest.overAt v 4 · t0) (OffsetCommitRequest.overAt v 5 · t0) _)
    |>.andThen ((.structs (fun _ _ => rfl) fun _ => rfl) : Sim (OffsetCommitRequest.overAt v 5 · t0) (OffsetCommitRequest.overAt v 6 · t0) _)
theorem OffsetCommitRequest.reusable : OffsetCommitRequest.reuse.Holds OffsetCommitRequest.layout where
  decode v t0 d := by
    have h := OffsetCommitRequest.sim v t0 {} d
    have e : OffsetCommitRequest.overAt v 0 {} t0 = t0 := by first | rfl | (simp only [OffsetCommitRequest.overAt, upto_zero, Option.none_or, ite_self] <;> rfl)
    simp only [e] at h
    exact h
  same v y t0 h := (app_congr (app_congr (app_congr (app_congr (app_congr rfl (again_opt Wire.int32 y.GenerationId t0.GenerationId)) (again_opt Wire.string y.MemberId t0.MemberId)) (again_opt Wire.string y.GroupInstanceId t0.GroupInstanceId)) (again_opt Wire.int64 y.RetentionTimeMs t0.RetentionTimeMs)) (same_or fun hn => h (hn)))
  stale v y h := by
    obtain h := h
    · exact ⟨({ Topics := some [{}] } : OffsetCommitRequest), (app_ne_right (app_congr (app_congr (app_congr (app_congr rfl (again_opt Wire.int32 y.GenerationId 0)) (again_opt Wire.string y.MemberId [])) (again_opt Wire.string y.GroupInstanceId [])) (again_opt Wire.int64 y.RetentionTimeMs 0)) (stale_or h))⟩

/-- What `t0` becomes where a new `OffsetCommitResponsePartition8` becomes `y`. -/
def OffsetCommitResponsePartition8.over (_version : Int16) (y _t0 : OffsetCommitResponsePartition8) : OffsetCommitResponsePartition8 :=
  { PartitionIndex := y.PartitionIndex,
    ErrorCode := y.ErrorCode }

/-- An array of structures is nil. -/
def OffsetCommitResponsePartition8.Nulls (_version : Int16) (_y : OffsetCommitResponsePartition8) : Prop :=
  False

/-- `OffsetCommitResponsePartition8` in use again. -/
def OffsetCommitResponsePartition8.reuse : Reuse OffsetCommitResponsePartition8.type := { over := OffsetCommitResponsePartition8.over, Nulls := OffsetCommitResponsePartition8.Nulls }

/-- The same after the first `k` statements of `Decode`. -/
def OffsetCommitResponsePartition8.overAt (_version : Int16) (k : Nat) (y t0 : OffsetCommitResponsePartition8) : OffsetCommitResponsePartition8 :=
  { PartitionIndex := upto k 0 (y.PartitionIndex) t0.PartitionIndex,
    ErrorCode := upto k 1 (y.ErrorCode) t0.ErrorCode }

theorem OffsetCommitResponsePartition8.sim (v : Int16) (t0 : OffsetCommitResponsePartition8) : Sim (OffsetCommitResponsePartition8.overAt v 0 · t0) (OffsetCommitResponsePartition8.overAt v 2 · t0) (OffsetCommitResponsePartition8.decode v) :=
  ((.field fun _ _ => rfl) : Sim (OffsetCommitResponsePartition8.overAt v 0 · t0) (OffsetCommitResponsePartition8.overAt v 1 · t0) _)
    |>.andThen ((.field fun _ _ => rfl) : Sim (OffsetCommitResponsePartition8.overAt v 1 · t0) (OffsetCommitResponsePartition8.overAt v 2 · t0) _)
theorem OffsetCommitResponsePartition8.reusable : OffsetCommitResponsePartition8.reuse.Holds OffsetCommitResponsePartition8.layout where
  decode v t0 d := by
    have h := OffsetCommitResponsePartition8.sim v t0 {} d
    have e : OffsetCommitResponsePartition8.overAt v 0 {} t0 = t0 := by first | rfl | (simp only [OffsetCommitResponsePartition8.overAt, upto_zero, Option.none_or, ite_self] <;> rfl)
    simp only [e] at h
    exact h
  same v y t0 _h := (app_congr rfl rfl)
  stale _ _ h := h.elim

/-- What `t0` becomes where a new `OffsetCommitResponseTopic8` becomes `y`. -/
def OffsetCommitResponseTopic8.over (_version : Int16) (y t0 : OffsetCommitResponseTopic8) : OffsetCommitResponseTopic8 :=
  { Name := y.Name,
    Partitions := y.Partitions.or t0.Partitions }

/-- An array of structures is nil. -/
def OffsetCommitResponseTopic8.Nulls (_version : Int16) (y : OffsetCommitResponseTopic8) : Prop :=
  y.Partitions = none

/-- `OffsetCommitResponseTopic8` in use again. -/
def OffsetCommitResponseTopic8.reuse : Reuse OffsetCommitResponseTopic8.type := { over := OffsetCommitResponseTopic8.over, Nulls := OffsetCommitResponseTopic8.Nulls }

/-- The same after the first `k` statements of `Decode`. -/
def OffsetCommitResponseTopic8.overAt (_version : Int16) (k : Nat) (y t0 : OffsetCommitResponseTopic8) : OffsetCommitResponseTopic8 :=
  { Name := upto k 0 (y.Name) t0.Name,
    Partitions := y.Partitions.or t0.Partitions }

theorem OffsetCommitResponseTopic8.sim (v : Int16) (t0 : OffsetCommitResponseTopic8) : Sim (OffsetCommitResponseTopic8.overAt v 0 · t0) (OffsetCommitResponseTopic8.overAt v 2 · t0) (OffsetCommitResponseTopic8.decode v) :=
  ((.field fun _ _ => rfl) : Sim (OffsetCommitResponseTopic8.overAt v 0 · t0) (OffsetCommitResponseTopic8.overAt v 1 · t0) _)
    |>.andThen ((.structs (fun _ _ => rfl) fun _ => rfl) : Sim (OffsetCommitResponseTopic8.overAt v 1 · t0) (OffsetCommitResponseTopic8.overAt v 2 · t0) _)
theorem OffsetCommitResponseTopic8.reusable : OffsetCommitResponseTopic8.reuse.Holds OffsetCommitResponseTopic8.layout where
  decode v t0 d := by
    have h := OffsetCommitResponseTopic8.sim v t0 {} d
    have e : OffsetCommitResponseTopic8.overAt v 0 {} t0 = t0 := by first | rfl | (simp only [OffsetCommitResponseTopic8.overAt, upto_zero, Option.none_or, ite_self] <;> rfl)
    simp only [e] at h
    exact h
  same v y t0 h := (app_congr rfl (same_or fun hn => h (hn)))
  stale v y h := by
    obtain h := h
    · exact ⟨({ Partitions := some [{}] } : OffsetCommitResponseTopic8), (app_ne_right rfl (stale_or h))⟩

/-- What `t0` becomes where a new `OffsetCommitResponse` becomes `y`. -/
def OffsetCommitResponse.over (version : Int16) (y t0 : OffsetCommitResponse) : OffsetCommitResponse :=
  { ThrottleTimeMs := if version ≥ 3 then y.ThrottleTimeMs else t0.ThrottleTimeMs,
    Topics := y.Topics.or t0.Topics }

/-- An array of structures is nil. -/
def OffsetCommitResponse.Nulls (_version : Int16) (y : OffsetCommitResponse) : Prop :=
  y.Topics = none

/-- `OffsetCommitResponse` in use again. -/
def OffsetCommitResponse.reuse : Reuse OffsetCommitResponse.type := { over := OffsetCommitResponse.over, Nulls := OffsetCommitResponse.Nulls }

/-- The same after the first `k` statements of `Decode`. -/
def OffsetCommitResponse.overAt (version : Int16) (k : Nat) (y t0 : OffsetCommitResponse) : OffsetCommitResponse :=
  { ThrottleTimeMs := upto k 0 (if version ≥ 3 then y.ThrottleTimeMs else t0.ThrottleTimeMs) t0.ThrottleTimeMs,
    Topics := y.Topics.or t0.Topics }

theorem OffsetCommitResponse.sim (v : Int16) (t0 : OffsetCommitResponse) : Sim (OffsetCommitResponse.overAt v 0 · t0) (OffsetCommitResponse.overAt v 2 · t0) (OffsetCommitResponse.decode v) :=
  ((.onlyIf (fun hc => .field fun _ _ => by simp only [OffsetCommitResponse.overAt, if_pos hc]; rfl) fun hc _ => by simp only [OffsetCommitResponse.overAt, if_neg hc]; rfl) : Sim (OffsetCommitResponse.overAt v 0 · t0) (OffsetCommitResponse.overAt v 1 · t0) _)
    |>.andThen ((.structs (fun _ _ => rfl) fun _ => rfl) : Sim (OffsetCommitResponse.overAt v 1 · t0) (OffsetCommitResponse.overAt v 2 · t0) _)
theorem OffsetCommitResponse.reusable : OffsetCommitResponse.reuse.Holds OffsetCommitResponse.layout where
  decode v t0 d := by
    have h := OffsetCommitResponse.sim v t0 {} d
    have e : OffsetCommitResponse.overAt v 0 {} t0 = t0 := by first | rfl | (simp only [OffsetCommitResponse.overAt, upto_zero, Option.none_or, ite_self] <;> rfl)
    simp only [e] at h
    exact h
  same v y t0 h := (app_congr (again_opt Wire.int32 y.ThrottleTimeMs t0.ThrottleTimeMs) (same_or fun hn => h (hn)))
  stale v y h := by
    obtain h := h
    · exact ⟨({ Topics := some [{}] } : OffsetCommitResponse), (app_ne_right (again_opt Wire.int32 y.ThrottleTimeMs 0) (stale_or h))⟩

/-- The structures of the OffsetCommit messages. -/
def reuseOffsetCommit : List (Σ (M : MsgType) (_ : Layout M), Reuse M) :=
  [⟨OffsetCommitRequest.type, OffsetCommitRequest.layout, OffsetCommitRequest.reuse⟩,
   ⟨OffsetCommitRequestTopic8.type, OffsetCommitRequestTopic8.layout, OffsetCommitRequestTopic8.reuse⟩,
   ⟨OffsetCommitRequestPartition8.type, OffsetCommitRequestPartition8.layout, OffsetCommitRequestPartition8.reuse⟩,
   ⟨OffsetCommitResponse.type, OffsetCommitResponse.layout, OffsetCommitResponse.reuse⟩,
   ⟨OffsetCommitResponseTopic8.type, OffsetCommitResponseTopic8.layout, OffsetCommitResponseTopic8.reuse⟩,
   ⟨OffsetCommitResponsePartition8.type, OffsetCommitResponsePartition8.layout, OffsetCommitResponsePartition8.reuse⟩]
theorem reuseOffsetCommit_holds : ∀ p ∈ reuseOffsetCommit, p.2.2.Holds p.2.1 := by
  unfold reuseOffsetCommit
  simp only [List.forall_mem_cons]
  exact ⟨OffsetCommitRequest.reusable, OffsetCommitRequestTopic8.reusable, OffsetCommitRequestPartition8.reusable, OffsetCommitResponse.reusable, OffsetCommitResponseTopic8.reusable, OffsetCommitResponsePartition8.reusable, fun _ h => absurd h (by simp)⟩

end Kafka.Msg
