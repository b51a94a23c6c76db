import Verif.Message.Reuse
import Verif.Gen.Spec.DeleteRecords
/-!
Generated by tools/gen_messages.py: decoding into DeleteRecords messages used before.
-/
set_option linter.unusedSimpArgs false
set_option linter.unusedVariables false
namespace Kafka.Msg

/-- What `t0` becomes where a new `DeleteRecordsPartition21` becomes `y`. -/
def DeleteRecordsPartition21.over (_version : Int16) (y _t0 : DeleteRecordsPartition21) : DeleteRecordsPartition21 :=
  { PartitionIndex := y.PartitionIndex,
    Offset := y.Offset }

/-- An array of structures is nil. -/
def DeleteRecordsPartition21.Nulls (_version : Int16) (_y : DeleteRecordsPartition21) : Prop :=
  False

/-- `DeleteRecordsPartition21` in use again. -/
def DeleteRecordsPartition21.reuse : Reuse DeleteRecordsPartition21.type := { over := DeleteRecordsPartition21.over, Nulls := DeleteRecordsPartition21.Nulls }

/-- The same after the first `k` statements of `Decode`. -/
def DeleteRecordsPartition21.overAt (_version : Int16) (k : Nat) (y t0 : DeleteRecordsPartition21) : DeleteRecordsPartition21 :=
  { PartitionIndex := upto k 0 (y.PartitionIndex) t0.PartitionIndex,
    Offset := upto k 1 (y.Offset) t0.Offset }

theorem DeleteRecordsPartition21.sim (v : Int16) (t0 : DeleteRecordsPartition21) : Sim (DeleteRecordsPartition21.overAt v 0 · t0) (DeleteRecordsPartition21.overAt v 2 · t0) (DeleteRecordsPartition21.decode v) :=
  ((.field fun _ _ => rfl) : Sim (DeleteRecordsPartition21.overAt v 0 · t0) (DeleteRecordsPartition21.overAt v 1 · t0) _)
    |>.andThen ((.field fun _ _ => rfl) : Sim (DeleteRecordsPartition21.overAt v 1 · t0) (DeleteRecordsPartition21.overAt v 2 · t0) _)
theorem DeleteRecordsPartition21.reusable : DeleteRecordsPartition21.reuse.Holds DeleteRecordsPartition21.layout where
  decode v t0 d := by
    have h := DeleteRecordsPartition21.sim v t0 {} d
    have e : DeleteRecordsPartition21.overAt v 0 {} t0 = t0 := by first | rfl | (simp only [DeleteRecordsPartition21.overAt, upto_zero, Option.none_or, ite_self] <;> rfl)
    simp only [e] at h
    exact h
  same v y t0 _h := (app_congr rfl rfl)
  stale _ _ h := h.elim

/-- What `t0` becomes where a new `DeleteRecordsTopic21` becomes `y`. -/
def DeleteRecordsTopic21.over (_version : Int16) (y t0 : DeleteRecordsTopic21) : DeleteRecordsTopic21 :=
  { Name := y.Name,
    Partitions := y.Partitions.or t0.Partitions }

/-- An array of structures is nil. -/
def DeleteRecordsTopic21.Nulls (_version : Int16) (y : DeleteRecordsTopic21) : Prop :=
  y.Partitions = none

/-- `DeleteRecordsTopic21` in use again. -/
def DeleteRecordsTopic21.reuse : Reuse DeleteRecordsTopic21.type := { over := DeleteRecordsTopic21.over, Nulls := DeleteRecordsTopic21.Nulls }

/-- The same after the first `k` statements of `Decode`. -/
def DeleteRecordsTopic21.overAt (_version : Int16) (k : Nat) (y t0 : DeleteRecordsTopic21) : DeleteRecordsTopic21 :=
  { Name := upto k 0 (y.Name) t0.Name,
    Partitions := y.Partitions.or t0.Partitions }

theorem DeleteRecordsTopic21.sim (v : Int16) (t0 : DeleteRecordsTopic21) : Sim (DeleteRecordsTopic21.overAt v 0 · t0) (DeleteRecordsTopic21.overAt v 2 · t0) (DeleteRecordsTopic21.decode v) :=
  ((.field fun _ _ => rfl) : Sim (DeleteRecordsTopic21.overAt v 0 · t0) (DeleteRecordsTopic21.overAt v 1 · t0) _)
    |>.andThen ((.structs (fun _ _ => rfl) fun _ => rfl) : Sim (DeleteRecordsTopic21.overAt v 1 · t0) (DeleteRecordsTopic21.overAt v 2 · t0) _)
theorem DeleteRecordsTopic21.reusable : DeleteRecordsTopic21.reuse.Holds DeleteRecordsTopic21.layout where
  decode v t0 d := by
    have h := DeleteRecordsTopic21.sim v t0 {} d
    have e : DeleteRecordsTopic21.overAt v 0 {} t0 = t0 := by first | rfl | (simp only [DeleteRecordsTopic21.overAt, upto_zero, Option.none_or, ite_self] <;> rfl)
    simp only [e] at h
    exact h
  same v y t0 h := (app_congr rfl (same_or fun hn => h (hn)))
  stale v y h := by
    obtain h := h
    · exact ⟨({ Partitions := some [{}] } : DeleteRecordsTopic21), (app_ne_right rfl (stale_or h))⟩

/-- What `t0` becomes where a new `DeleteRecordsRequest` becomes `y`. -/
def DeleteRecordsRequest.over (_version : Int16) (y t0 : DeleteRecordsRequest) : DeleteRecordsRequest :=
  { Topics := y.Topics.or t0.Topics,
    TimeoutMs := y.TimeoutMs }

/-- An array of structures is nil. -/
def DeleteRecordsRequest.Nulls (_version : Int16) (y : DeleteRecordsRequest) : Prop :=
  y.Topics = none

/-- `DeleteRecordsRequest` in use again. -/
def DeleteRecordsRequest.reuse : Reuse DeleteRecordsRequest.type := { over := DeleteRecordsRequest.over, Nulls := DeleteRecordsRequest.Nulls }

/-- The same after the first `k` statements of `Decode`. -/
def DeleteRecordsRequest.overAt (_version : Int16) (k : Nat) (y t0 : DeleteRecordsRequest) : DeleteRecordsRequest :=
  { Topics := y.Topics.or t0.Topics,
    TimeoutMs := upto k 1 (y.TimeoutMs) t0.TimeoutMs }

theorem DeleteRecordsRequest.sim (v : Int16) (t0 : DeleteRecordsRequest) : Sim (DeleteRecordsRequest.overAt v 0 · t0) (DeleteRecordsRequest.overAt v 2 · t0) (DeleteRecordsRequest.decode v) :=
  ((.structs (fun _ _ => rfl) fun _ => rfl) : Sim (DeleteRecordsRequest.overAt v 0 · t0) (DeleteRecordsRequest.overAt v 1 · t0) _)
    |>.andThen ((.field fun _ _ => rfl) : Sim (DeleteRecordsRequest.overAt v 1 · t0) (DeleteRecordsRequest.overAt v 2 · t0) _)
theorem DeleteRecordsRequest.reusable : DeleteRecordsRequest.reuse.Holds DeleteRecordsRequest.layout where
  decode v t0 d := by
    have h := DeleteRecordsRequest.sim v t0 {} d
    have e : DeleteRecordsRequest.overAt v 0 {} t0 = t0 := by first | rfl | (simp only [DeleteRecordsRequest.overAt, upto_zero, Option.none_or, ite_self] <;> rfl)
    simp only [e] at h
    exact h
  same v y t0 h := (app_congr (same_or fun hn => h (hn)) rfl)
  stale v y h := by
    obtain h := h
    · exact ⟨({ Topics := some [{}] } : DeleteRecordsRequest), (app_ne_left (stale_or h) rfl)⟩

/-- What `t0` becomes where a new `DeleteRecordsPartitionResult21` becomes `y`. -/
def DeleteRecordsPartitionResult21.over (_version : Int16) (y _t0 : DeleteRecordsPartitionResult21) : DeleteRecordsPartitionResult21 :=
  { PartitionIndex := y.PartitionIndex,
    LowWatermark := y.LowWatermark,
    ErrorCode := y.ErrorCode }

/-- An array of structures is nil. -/
def DeleteRecordsPartitionResult21.Nulls (_version : Int16) (_y : DeleteRecordsPartitionResult21) : Prop :=
  False

/-- `DeleteRecordsPartitionResult21` in use again. -/
def DeleteRecordsPartitionResult21.reuse : Reuse DeleteRecordsPartitionResult21.type := { over := DeleteRecordsPartitionResult21.over, Nulls := DeleteRecordsPartitionResult21.Nulls }

/-- The same after the first `k` statements of `Decode`. -/
def DeleteRecordsPartitionResult21.overAt (_version : Int16) (k : Nat) (y t0 : DeleteRecordsPartitionResult21) : DeleteRecordsPartitionResult21 :=
  { PartitionIndex := upto k 0 (y.PartitionIndex) t0.PartitionIndex,
    LowWatermark := upto k 1 (y.LowWatermark) t0.LowWatermark,
    ErrorCode := upto k 2 (y.ErrorCode) t0.ErrorCode }

theorem DeleteRecordsPartitionResult21.sim (v : Int16) (t0 : DeleteRecordsPartitionResult21) : Sim (DeleteRecordsPartitionResult21.overAt v 0 · t0) (DeleteRecordsPartitionResult21.overAt v 3 · t0) (DeleteRecordsPartitionResult21.decode v) :=
  ((.field fun _ _ => rfl) : Sim (DeleteRecordsPartitionResult21.overAt v 0 · t0) (DeleteRecordsPartitionResult21.overAt v 1 · t0) _)
    |>.andThen ((.field fun _ _ => rfl) : Sim (DeleteRecordsPartitionResult21.overAt v 1 · t0) (DeleteRecordsPartitionResult21.overAt v 2 · t0) _)
    |>.andThen ((.field fun _ _ => rfl) : Sim (DeleteRecordsPartitionResult21.overAt v 2 · t0) (DeleteRecordsPartitionResult21.overAt v 3 · t0) _)
theorem DeleteRecordsPartitionResult21.reusable : DeleteRecordsPartitionResult21.reuse.Holds DeleteRecordsPartitionResult21.layout where
  decode v t0 d := by
    have h := DeleteRecordsPartitionResult21.sim v t0 {} d
    have e : DeleteRecordsPartitionResult21.overAt v 0 {} t0 = t0 := by first | rfl | (simp only [DeleteRecordsPartitionResult21.overAt, upto_zero, Option.none_or, ite_self] <;> rfl)
    simp only [e] at h
    exact h
  same v y t0 _h := (app_congr (app_congr rfl rfl) rfl)
  stale _ _ h := h.elim

/-- What `t0` becomes where a new `DeleteRecordsTopicResult21` becomes `y`. -/
def DeleteRecordsTopicResult21.over (_version : Int16) (y t0 : DeleteRecordsTopicResult21) : DeleteRecordsTopicResult21 :=
  { Name := y.Name,
    Partitions := y.Partitions.or t0.Partitions }

/-- An array of structures is nil. -/
def DeleteRecordsTopicResult21.Nulls (_version : Int16) (y : DeleteRecordsTopicResult21) : Prop :=
  y.Partitions = none

/-- `DeleteRecordsTopicResult21` in use again. -/
def DeleteRecordsTopicResult21.reuse : Reuse DeleteRecordsTopicResult21.type := { over := DeleteRecordsTopicResult21.over, Nulls := DeleteRecordsTopicResult21.Nulls }

/-- The same after the first `k` statements of `Decode`. -/
def DeleteRecordsTopicResult21.overAt (_version : Int16) (k : Nat) (y t0 : DeleteRecordsTopicResult21) : DeleteRecordsTopicResult21 :=
  { Name := upto k 0 (y.Name) t0.Name,
    Partitions := y.Partitions.or t0.Partitions }

theorem DeleteRecordsTopicResult21.sim (v : Int16) (t0 : DeleteRecordsTopicResult21) : Sim (DeleteRecordsTopicResult21.overAt v 0 · t0) (DeleteRecordsTopicResult21.overAt v 2 · t0) (DeleteRecordsTopicResult21.decode v) :=
  ((.field fun _ _ => rfl) : Sim (DeleteRecordsTopicResult21.overAt v 0 · t0) (DeleteRecordsTopicResult21.overAt v 1 · t0) _)
    |>.andThen ((.structs (fun _ _ => rfl) fun _ => rfl) : Sim (DeleteRecordsTopicResult21.overAt v 1 · t0) (DeleteRecordsTopicResult21.overAt v 2 · t0) _)
theorem DeleteRecordsTopicResult21.reusable : DeleteRecordsTopicResult21.reuse.Holds DeleteRecordsTopicResult21.layout where
  decode v t0 d := by
    have h := DeleteRecordsTopicResult21.sim v t0 {} d
    have e : DeleteRecordsTopicResult21.overAt v 0 {} t0 = t0 := by first | rfl | (simp only [DeleteRecordsTopicResult21.overAt, upto_zero, Option.none_or, ite_self] <;> rfl)
    simp only [e] at h
    exact h
  same v y t0 h := (app_congr rfl (same_or fun hn => h (hn)))
  stale v y h := by
    obtain h := h
    · exact ⟨({ Partitions := some [{}] } : DeleteRecordsTopicResult21), (app_ne_right rfl (stale_or h))⟩

/-- What `t0` becomes where a new `DeleteRecordsResponse` becomes `y`. -/
def DeleteRecordsResponse.over (_version : Int16) (y t0 : DeleteRecordsResponse) : DeleteRecordsResponse :=
  { ThrottleTimeMs := y.ThrottleTimeMs,
    Topics := y.Topics.or t0.Topics }

/-- An array of structures is nil. -/
def DeleteRecordsResponse.Nulls (_version : Int16) (y : DeleteRecordsResponse) : Prop :=
  y.Topics = none

/-- `DeleteRecordsResponse` in use again. -/
def DeleteRecordsResponse.reuse : Reuse DeleteRecordsResponse.type := { over := DeleteRecordsResponse.over, Nulls := DeleteRecordsResponse.Nulls }

/-- The same after the first `k` statements of `Decode`. -/
def DeleteRecordsResponse.overAt (_version : Int16) (k : Nat) (y t0 : DeleteRecordsResponse) : DeleteRecordsResponse :=
  { ThrottleTimeMs := upto k 0 (y.ThrottleTimeMs) t0.ThrottleTimeMs,
    Topics := y.Topics.or t0.Topics }

theorem DeleteRecordsResponse.sim (v : Int16) (t0 : DeleteRecordsResponse) : Sim (DeleteRecordsResponse.overAt v 0 · t0) (DeleteRecordsResponse.overAt v 2 · t0) (DeleteRecordsResponse.decode v) :=
  ((.field fun _ _ => rfl) : Sim (DeleteRecordsResponse.overAt v 0 · t0) (DeleteRecordsResponse.overAt v 1 · t0) _)
    |>.andThen ((.structs (fun _ _ => rfl) fun _ => rfl) : Sim (DeleteRecordsResponse.overAt v 1 · t0) (DeleteRecordsResponse.overAt v 2 · t0) _)
theorem DeleteRecordsResponse.reusable : DeleteRecordsResponse.reuse.Holds DeleteRecordsResponse.layout where
  decode v t0 d := by
    have h := DeleteRecordsResponse.sim v t0 {} d
    have e : DeleteRecordsResponse.overAt v 0 {} t0 = t0 := by first | rfl | (simp only [DeleteRecordsResponse.overAt, upto_zero, Option.none_or, ite_self] <;> rfl)
    simp only [e] at h
    exact h
  same v y t0 h := (app_congr rfl (same_or fun hn => h (hn)))
  stale v y h := by
    obtain h := h
    · exact ⟨({ Topics := some [{}] } : DeleteRecordsResponse), (app_ne_right rfl (stale_or h))⟩

/-- The structures of the DeleteRecords messages. -/
def reuseDeleteRecords : List (Σ (M : MsgType) (_ : Layout M), Reuse M) :=
  [⟨DeleteRecordsRequest.type, DeleteRecordsRequest.layout, DeleteRecordsRequest.reuse⟩,
   ⟨DeleteRecordsTopic21.type, DeleteRecordsTopic21.layout, DeleteRecordsTopic21.reuse⟩,
   ⟨DeleteRecordsPartition21.type, DeleteRecordsPartition21.layout, DeleteRecordsPartition21.reuse⟩,
   ⟨DeleteRecordsResponse.type, DeleteRecordsResponse.layout, DeleteRecordsResponse.reuse⟩,
   ⟨DeleteRecordsTopicResult21.type, DeleteRecordsTopicResult21.layout, DeleteRecordsTopicResult21.reuse⟩,
   ⟨DeleteRecordsPartitionResult21.type, DeleteRecordsPartitionResult21.layout, DeleteRecordsPartitionResult21.reuse⟩]
theorem reuseDeleteRecords_holds : ∀ p ∈ reuseDeleteRecords, p.2.2.Holds p.2.1 := by
  unfold reuseDeleteRecords
  simp only [List.forall_mem_cons]
  exact ⟨DeleteRecordsRequest.reusable, DeleteRecordsTopic21.reusable, DeleteRecordsPartition21.reusable, DeleteRecordsResponse.reusable, DeleteRecordsTopicResult21.reusable, DeleteRecordsPartitionResult21.reusable, fun _ h => absurd h (by simp)⟩

end Kafka.Msg
