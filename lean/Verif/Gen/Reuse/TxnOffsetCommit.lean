import Verif.Message.Reuse
import Verif.Gen.Spec.TxnOffsetCommit
/-!
Generated by tools/gen_messages.py: decoding into TxnOffsetCommit messages used before.
-/
set_option linter.unusedSimpArgs false
set_option linter.unusedVariables false
namespace Kafka.Msg

/-- What `t0` becomes where a new `TxnOffsetCommitRequestPartition28` becomes `y`. -/
def TxnOffsetCommitRequestPartition28.over (version : Int16) (y t0 : TxnOffsetCommitRequestPartition28) : TxnOffsetCommitRequestPartition28 :=
  { PartitionIndex := y.PartitionIndex,
    CommittedOffset := y.CommittedOffset,
    CommittedLeaderEpoch := if version ≥ 2 then y.CommittedLeaderEpoch else t0.CommittedLeaderEpoch,
    CommittedMetadata := y.CommittedMetadata }

/-- An array of structures is nil. -/
def TxnOffsetCommitRequestPartition28.Nulls (_version : Int16) (_y : TxnOffsetCommitRequestPartition28) : Prop :=
  False

/-- `TxnOffsetCommitRequestPartition28` in use again. -/
def TxnOffsetCommitRequestPartition28.reuse : Reuse TxnOffsetCommitRequestPartition28.type := { over := TxnOffsetCommitRequestPartition28.over, Nulls := TxnOffsetCommitRequestPartition28.Nulls }

/-- The same after the first `k` statements of `Decode`. -/
def TxnOffsetCommitRequestPartition28.overAt (version : Int16) (k : Nat) (y t0 : TxnOffsetCommitRequestPartition28) : TxnOffsetCommitRequestPartition28 :=
  { PartitionIndex := upto k 0 (y.PartitionIndex) t0.PartitionIndex,
    CommittedOffset := upto k 1 (y.CommittedOffset) t0.CommittedOffset,
    CommittedLeaderEpoch := upto k 2 (if version ≥ 2 then y.CommittedLeaderEpoch else t0.CommittedLeaderEpoch) t0.CommittedLeaderEpoch,
    CommittedMetadata := upto k 3 (y.CommittedMetadata) t0.CommittedMetadata }

theorem TxnOffsetCommitRequestPartition28.sim (v : Int16) (t0 : TxnOffsetCommitRequestPartition28) : Sim (TxnOffsetCommitRequestPartition28.overAt v 0 · t0) (TxnOffsetCommitRequestPartition28.overAt v 4 · t0) (TxnOffsetCommitRequestPartition28.decode v) :=
  ((.field fun _ _ => rfl) : Sim (TxnOffsetCommitRequestPartition28.overAt v 0 · t0) (TxnOffsetCommitRequestPartition28.overAt v 1 · t0) _)
    |>.andThen ((.field fun _ _ => rfl) : Sim (TxnOffsetCommitRequestPartition28.overAt v 1 · t0) (TxnOffsetCommitRequestPartition28.overAt v 2 · t0) _)
    |>.andThen ((.onlyIf (fun hc => .field fun _ _ => by simp only [TxnOffsetCommitRequestPartition28.overAt, if_pos hc]; rfl) fun hc _ => by simp only [TxnOffsetCommitRequestPartition28.overAt, if_neg hc]; rfl) : Sim (TxnOffsetCommitRequestPartition28.overAt v 2 · t0) (TxnOffsetCommitRequestPartition28.overAt v 3 · t0) _)
    |>.andThen ((.field fun _ _ => rfl) : Sim (TxnOffsetCommitRequestPartition28.overAt v 3 · t0) (TxnOffsetCommitRequestPartition28.overAt v 4 · t0) _)
theorem TxnOffsetCommitRequestPartition28.reusable : TxnOffsetCommitRequestPartition28.reuse.Holds TxnOffsetCommitRequestPartition28.layout where
  decode v t0 d := by
    have h := TxnOffsetCommitRequestPartition28.sim v t0 {} d
    have e : TxnOffsetCommitRequestPartition28.overAt v 0 {} t0 = t0 := by first | rfl | (simp only [TxnOffsetCommitRequestPartition28.overAt, upto_zero, Option.none_or, ite_self] <;> rfl)
    simp only [e] at h
    exact h
  same v y t0 h := (app_congr (app_congr (app_congr rfl rfl) (again_opt Wire.int32 y.CommittedLeaderEpoch t0.CommittedLeaderEpoch)) rfl)
  stale _ _ h := h.elim

/-- What `t0` becomes where a new `TxnOffsetCommitRequestTopic28` becomes `y`. -/
def TxnOffsetCommitRequestTopic28.over (_version : Int16) (y t0 : TxnOffsetCommitRequestTopic28) : TxnOffsetCommitRequestTopic28 :=
  { Name := y.Name,
    Partitions := y.Partitions.or t0.Partitions }

/-- An array of structures is nil. -/
def TxnOffsetCommitRequestTopic28.Nulls (_version : Int16) (y : TxnOffsetCommitRequestTopic28) : Prop :=
  y.Partitions = none

/-- `TxnOffsetCommitRequestTopic28` in use again. -/
def TxnOffsetCommitRequestTopic28.reuse : Reuse TxnOffsetCommitRequestTopic28.type := { over := TxnOffsetCommitRequestTopic28.over, Nulls := TxnOffsetCommitRequestTopic28.Nulls }

/-- The same after the first `k` statements of `Decode`. -/
def TxnOffsetCommitRequestTopic28.overAt (_version : Int16) (k : Nat) (y t0 : TxnOffsetCommitRequestTopic28) : TxnOffsetCommitRequestTopic28 :=
  { Name := upto k 0 (y.Name) t0.Name,
    Partitions := y.Partitions.or t0.Partitions }

theorem TxnOffsetCommitRequestTopic28.sim (v : Int16) (t0 : TxnOffsetCommitRequestTopic28) : Sim (TxnOffsetCommitRequestTopic28.overAt v 0 · t0) (TxnOffsetCommitRequestTopic28.overAt v 2 · t0) (TxnOffsetCommitRequestTopic28.decode v) :=
  ((.field fun _ _ => rfl) : Sim (TxnOffsetCommitRequestTopic28.overAt v 0 · t0) (TxnOffsetCommitRequestTopic28.overAt v 1 · t0) _)
    |>.andThen ((.structs (fun _ _ => rfl) fun _ => rfl) : Sim (TxnOffsetCommitRequestTopic28.overAt v 1 · t0) (TxnOffsetCommitRequestTopic28.overAt v 2 · t0) _)
theorem TxnOffsetCommitRequestTopic28.reusable : TxnOffsetCommitRequestTopic28.reuse.Holds TxnOffsetCommitRequestTopic28.layout where
  decode v t0 d := by
    have h := TxnOffsetCommitRequestTopic28.sim v t0 {} d
    have e : TxnOffsetCommitRequestTopic28.overAt v 0 {} t0 = t0 := by first | rfl | (simp only [TxnOffsetCommitRequestTopic28.overAt, upto_zero, Option.none_or, ite_self] <;> rfl)
    simp only [e] at h
    exact h
  same v y t0 h := (app_congr rfl (same_or fun hn => h (hn)))
  stale v y h := by
    obtain h := h
    · exact ⟨({ Partitions := some [{}] } : TxnOffsetCommitRequestTopic28), (app_ne_right rfl (stale_or h))⟩

/-- What `t0` becomes where a new `TxnOffsetCommitRequest` becomes `y`. -/
def TxnOffsetCommitRequest.over (_version : Int16) (y t0 : TxnOffsetCommitRequest) : TxnOffsetCommitRequest :=
  { TransactionalId := y.TransactionalId,
    GroupId := y.GroupId,
    ProducerId := y.ProducerId,
    ProducerEpoch := y.ProducerEpoch,
    Topics := y.Topics.or t0.Topics }

/-- An array of structures is nil. -/
def TxnOffsetCommitRequest.Nulls (_version : Int16) (y : TxnOffsetCommitRequest) : Prop :=
  y.Topics = none

/-- `TxnOffsetCommitRequest` in use again. -/
def TxnOffsetCommitRequest.reuse : Reuse TxnOffsetCommitRequest.type := { over := TxnOffsetCommitRequest.over, Nulls := TxnOffsetCommitRequest.Nulls }

/-- The same after the first `k` statements of `Decode`. -/
def TxnOffsetCommitRequest.overAt (_version : Int16) (k : Nat) (y t0 : TxnOffsetCommitRequest) : TxnOffsetCommitRequest :=
  { TransactionalId := upto k 0 (y.TransactionalId) t0.TransactionalId,
    GroupId := upto k 1 (y.GroupId) t0.GroupId,
    ProducerId := upto k 2 (y.ProducerId) t0.ProducerId,
    ProducerEpoch := upto k 3 (y.ProducerEpoch) t0.ProducerEpoch,
    Topics := y.Topics.or t0.Topics }

theorem TxnOffsetCommitRequest.sim (v : Int16) (t0 : TxnOffsetCommitRequest) : Sim (TxnOffsetCommitRequest.overAt v 0 · t0) (TxnOffsetCommitRequest.overAt v 5 · t0) (TxnOffsetCommitRequest.decode v) :=
  ((.field fun _ _ => rfl) : Sim (TxnOffsetCommitRequest.overAt v 0 · t0) (TxnOffsetCommitRequest.overAt v 1 · t0) _)
    |>.andThen ((.field fun _ _ => rfl) : Sim (TxnOffsetCommitRequest.overAt v 1 · t0) (TxnOffsetCommitRequest.overAt v 2 · t0) _)
    |>.andThen ((.field fun _ _ => rfl) : Sim (TxnOffsetCommitRequest.overAt v 2 · t0) (TxnOffsetCommitRequest.overAt v 3 · t0) _)
    |>.andThen ((.field fun _ _ => rfl) : Sim (TxnOffsetCommitRequest.overAt v 3 · t0) (TxnOffsetCommitRequest.overAt v 4 · t0) _)
    |>.andThen ((.structs (fun _ _ => rfl) fun _ => rfl) : Sim (TxnOffsetCommitRequest.overAt v 4 · t0) (TxnOffsetCommitRequest.overAt v 5 · t0) _)
theorem TxnOffsetCommitRequest.reusable : TxnOffsetCommitRequest.reuse.Holds TxnOffsetCommitRequest.layout where
  decode v t0 d := by
    have h := TxnOffsetCommitRequest.sim v t0 {} d
    have e : TxnOffsetCommitRequest.overAt v 0 {} t0 = t0 := by first | rfl | (simp only [TxnOffsetCommitRequest.overAt, upto_zero, Option.none_or, ite_self] <;> rfl)
    simp only [e] at h
    exact h
  same v y t0 h := (app_congr (app_congr (app_congr (app_congr rfl rfl) rfl) rfl) (same_or fun hn => h (hn)))
  stale v y h := by
    obtain h := h
    · exact ⟨({ Topics := some [{}] } : TxnOffsetCommitRequest), (app_ne_right (app_congr (app_congr (app_congr rfl rfl) rfl) rfl) (stale_or h))⟩

/-- What `t0` becomes where a new `TxnOffsetCommitResponsePartition28` becomes `y`. -/
def TxnOffsetCommitResponsePartition28.over (_version : Int16) (y _t0 : TxnOffsetCommitResponsePartition28) : TxnOffsetCommitResponsePartition28 :=
  { PartitionIndex := y.PartitionIndex,
    ErrorCode := y.ErrorCode }

/-- An array of structures is nil. -/
def TxnOffsetCommitResponsePartition28.Nulls (_version : Int16) (_y : TxnOffsetCommitResponsePartition28) : Prop :=
  False

/-- `TxnOffsetCommitResponsePartition28` in use again. -/
def TxnOffsetCommitResponsePartition28.reuse : Reuse TxnOffsetCommitResponsePartition28.type := { over := TxnOffsetCommitResponsePartition28.over, Nulls := TxnOffsetCommitResponsePartition28.Nulls }

/-- The same after the first `k` statements of `Decode`. -/
def TxnOffsetCommitResponsePartition28.overAt (_version : Int16) (k : Nat) (y t0 : TxnOffsetCommitResponsePartition28) : TxnOffsetCommitResponsePartition28 :=
  { PartitionIndex := upto k 0 (y.PartitionIndex) t0.PartitionIndex,
    ErrorCode := upto k 1 (y.ErrorCode) t0.ErrorCode }

theorem TxnOffsetCommitResponsePartition28.sim (v : Int16) (t0 : TxnOffsetCommitResponsePartition28) : Sim (TxnOffsetCommitResponsePartition28.overAt v 0 · t0) (TxnOffsetCommitResponsePartition28.overAt v 2 · t0) (TxnOffsetCommitResponsePartition28.decode v) :=
  ((.field fun _ _ => rfl) : Sim (TxnOffsetCommitResponsePartition28.overAt v 0 · t0) (TxnOffsetCommitResponsePartition28.overAt v 1 · t0) _)
    |>.andThen ((.field fun _ _ => rfl) : Sim (TxnOffsetCommitResponsePartition28.overAt v 1 · t0) (TxnOffsetCommitResponsePartition28.overAt v 2 · t0) _)
theorem TxnOffsetCommitResponsePartition28.reusable : TxnOffsetCommitResponsePartition28.reuse.Holds TxnOffsetCommitResponsePartition28.layout where
  decode v t0 d := by
    have h := TxnOffsetCommitResponsePartition28.sim v t0 {} d
    have e : TxnOffsetCommitResponsePartition28.overAt v 0 {} t0 = t0 := by first | rfl | (simp only [TxnOffsetCommitResponsePartition28.overAt, upto_zero, Option.none_or, ite_self] <;> rfl)
    simp only [e] at h
    exact h
  same v y t0 _h := (app_congr rfl rfl)
  stale _ _ h := h.elim

/-- What `t0` becomes where a new `TxnOffsetCommitResponseTopic28` becomes `y`. -/
def TxnOffsetCommitResponseTopic28.over (_version : Int16) (y t0 : TxnOffsetCommitResponseTopic28) : TxnOffsetCommitResponseTopic28 :=
  { Name := y.Name,
    Partitions := y.Partitions.or t0.Partitions }

/-- An array of structures is nil. -/
def TxnOffsetCommitResponseTopic28.Nulls (_version : Int16) (y : TxnOffsetCommitResponseTopic28) : Prop :=
  y.Partitions = none

/-- `TxnOffsetCommitResponseTopic28` in use again. -/
def TxnOffsetCommitResponseTopic28.reuse : Reuse TxnOffsetCommitResponseTopic28.type := { over := TxnOffsetCommitResponseTopic28.over, Nulls := TxnOffsetCommitResponseTopic28.Nulls }

/-- The same after the first `k` statements of `Decode`. -/
def TxnOffsetCommitResponseTopic28.overAt (_version : Int16) (k : Nat) (y t0 : TxnOffsetCommitResponseTopic28) : TxnOffsetCommitResponseTopic28 :=
  { Name := upto k 0 (y.Name) t0.Name,
    Partitions := y.Partitions.or t0.Partitions }

theorem TxnOffsetCommitResponseTopic28.sim (v : Int16) (t0 : TxnOffsetCommitResponseTopic28) : Sim (TxnOffsetCommitResponseTopic28.overAt v 0 · t0) (TxnOffsetCommitResponseTopic28.overAt v 2 · t0) (TxnOffsetCommitResponseTopic28.decode v) :=
  ((.field fun _ _ => rfl) : Sim (TxnOffsetCommitResponseTopic28.overAt v 0 · t0) (TxnOffsetCommitResponseTopic28.overAt v 1 · t0) _)
    |>.andThen ((.structs (fun _ _ => rfl) fun _ => rfl) : Sim (TxnOffsetCommitResponseTopic28.overAt v 1 · t0) (TxnOffsetCommitResponseTopic28.overAt v 2 · t0) _)
theorem TxnOffsetCommitResponseTopic28.reusable : TxnOffsetCommitResponseTopic28.reuse.Holds TxnOffsetCommitResponseTopic28.layout where
  decode v t0 d := by
    have h := TxnOffsetCommitResponseTopic28.sim v t0 {} d
    have e : TxnOffsetCommitResponseTopic28.overAt v 0 {} t0 = t0 := by first | rfl | (simp only [TxnOffsetCommitResponseTopic28.overAt, upto_zero, Option.none_or, ite_self] <;> rfl)
    simp only [e] at h
    exact h
  same v y t0 h := (app_congr rfl (same_or fun hn => h (hn)))
  stale v y h := by
    obtain h := h
    · exact ⟨({ Partitions := some [{}] } : TxnOffsetCommitResponseTopic28), (app_ne_right rfl (stale_or h))⟩

/-- What `t0` becomes where a new `TxnOffsetCommitResponse` becomes `y`. -/
def TxnOffsetCommitResponse.over (_version : Int16) (y t0 : TxnOffsetCommitResponse) : TxnOffsetCommitResponse :=
  { ThrottleTimeMs := y.ThrottleTimeMs,
    Topics := y.Topics.or t0.Topics }

/-- An array of structures is nil. -/
def TxnOffsetCommitResponse.Nulls (_version : Int16) (y : TxnOffsetCommitResponse) : Prop :=
  y.Topics = none

/-- `TxnOffsetCommitResponse` in use again. -/
def TxnOffsetCommitResponse.reuse : Reuse TxnOffsetCommitResponse.type := { over := TxnOffsetCommitResponse.over, Nulls := TxnOffsetCommitResponse.Nulls }

/-- The same after the first `k` statements of `Decode`. -/
def TxnOffsetCommitResponse.overAt (_version : Int16) (k : Nat) (y t0 : TxnOffsetCommitResponse) : TxnOffsetCommitResponse :=
  { ThrottleTimeMs := upto k 0 (y.ThrottleTimeMs) t0.ThrottleTimeMs,
    Topics := y.Topics.or t0.Topics }

theorem TxnOffsetCommitResponse.sim (v : Int16) (t0 : TxnOffsetCommitResponse) : Sim (TxnOffsetCommitResponse.overAt v 0 · t0) (TxnOffsetCommitResponse.overAt v 2 · t0) (TxnOffsetCommitResponse.decode v) :=
  ((.field fun _ _ => rfl) : Sim (TxnOffsetCommitResponse.overAt v 0 · t0) (TxnOffsetCommitResponse.overAt v 1 · t0) _)
    |>.andThen ((.structs (fun _ _ => rfl) fun _ => rfl) : Sim (TxnOffsetCommitResponse.overAt v 1 · t0) (TxnOffsetCommitResponse.overAt v 2 · t0) _)
theorem TxnOffsetCommitResponse.reusable : TxnOffsetCommitResponse.reuse.Holds TxnOffsetCommitResponse.layout where
  decode v t0 d := by
    have h := TxnOffsetCommitResponse.sim v t0 {} d
    have e : TxnOffsetCommitResponse.overAt v 0 {} t0 = t0 := by first | rfl | (simp only [TxnOffsetCommitResponse.overAt, upto_zero, Option.none_or, ite_self] <;> rfl)
    simp only [e] at h
    exact h
  same v y t0 h := (app_congr rfl (same_or fun hn => h (hn)))
  stale v y h := by
    obtain h := h
    · exact ⟨({ Topics := some [{}] } : TxnOffsetCommitResponse), (app_ne_right rfl (stale_or h))⟩

/-- The structures of the TxnOffsetCommit messages. -/
def reuseTxnOffsetCommit : List (Σ (M : MsgType) (_ : Layout M), Reuse M) :=
  [⟨TxnOffsetCommitRequest.type, TxnOffsetCommitRequest.layout, TxnOffsetCommitRequest.reuse⟩,
   ⟨TxnOffsetCommitRequestTopic28.type, TxnOffsetCommitRequestTopic28.layout, TxnOffsetCommitRequestTopic28.reuse⟩,
   ⟨TxnOffsetCommitRequestPartition28.type, TxnOffsetCommitRequestPartition28.layout, TxnOffsetCommitRequestPartition28.reuse⟩,
   ⟨TxnOffsetCommitResponse.type, TxnOffsetCommitResponse.layout, TxnOffsetCommitResponse.reuse⟩,
   ⟨TxnOffsetCommitResponseTopic28.type, TxnOffsetCommitResponseTopic28.layout, TxnOffsetCommitResponseTopic28.reuse⟩,
   ⟨TxnOffsetCommitResponsePartition28.type, TxnOffsetCommitResponsePartition28.layout, TxnOffsetCommitResponsePartition28.reuse⟩]
theorem reuseTxnOffsetCommit_holds : ∀ p ∈ reuseTxnOffsetCommit, p.2.2.Holds p.2.1 := by
  unfold reuseTxnOffsetCommit
  simp only [List.forall_mem_cons]
  exact ⟨TxnOffsetCommitRequest.reusable, TxnOffsetCommitRequestTopic28.reusable, TxnOffsetCommitRequestPartition28.reusable, TxnOffsetCommitResponse.reusable, TxnOffsetCommitResponseTopic28.reusable, TxnOffsetCommitResponsePartition28.reusable, fun _ h => absurd h (by simp)⟩

end Kafka.Msg
