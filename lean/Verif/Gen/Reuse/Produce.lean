import Verif.Message.Reuse
import Verif.Gen.Spec.Produce
/-!
Generated by tools/gen_messages.py: decoding into Produce messages used before.
-/
set_option linter.unusedSimpArgs false
set_option linter.unusedVariables false
namespace Kafka.Msg

/-- What `t0` becomes where a new `PartitionProduceData0` becomes `y`. -/
def PartitionProduceData0.over (_version : Int16) (y _t0 : PartitionProduceData0) : PartitionProduceData0 :=
  { PartitionIndex := y.PartitionIndex,
    Records := y.Records }

/-- An array of structures is nil. -/
def PartitionProduceData0.Nulls (_version : Int16) (_y : PartitionProduceData0) : Prop :=
  False

/-- `PartitionProduceData0` in use again. -/
def PartitionProduceData0.reuse : Reuse PartitionProduceData0.type := { over := PartitionProduceData0.over, Nulls := PartitionProduceData0.Nulls }

/-- The same after the first `k` statements of `Decode`. -/
def PartitionProduceData0.overAt (_version : Int16) (k : Nat) (y t0 : PartitionProduceData0) : PartitionProduceData0 :=
  { PartitionIndex := upto k 0 (y.PartitionIndex) t0.PartitionIndex,
    Records := upto k 1 (y.Records) t0.Records }

theorem PartitionProduceData0.sim (v : Int16) (t0 : PartitionProduceData0) : Sim (PartitionProduceData0.overAt v 0 · t0) (PartitionProduceData0.overAt v 2 · t0) (PartitionProduceData0.decode v) :=
  ((.field fun _ _ => rfl) : Sim (PartitionProduceData0.overAt v 0 · t0) (PartitionProduceData0.overAt v 1 · t0) _)
    |>.andThen ((.field fun _ _ => rfl) : Sim (PartitionProduceData0.overAt v 1 · t0) (PartitionProduceData0.overAt v 2 · t0) _)
theorem PartitionProduceData0.reusable : PartitionProduceData0.reuse.Holds PartitionProduceData0.layout where
  decode v t0 d := by
    have h := PartitionProduceData0.sim v t0 {} d
    have e : PartitionProduceData0.overAt v 0 {} t0 = t0 := by first | rfl | (simp only [PartitionProduceData0.overAt, upto_zero, Option.none_or, ite_self] <;> rfl)
    simp only [e] at h
    exact h
  same v y t0 _h := (app_congr rfl rfl)
  stale _ _ h := h.elim

/-- What `t0` becomes where a new `TopicProduceData0` becomes `y`. -/
def TopicProduceData0.over (_version : Int16) (y t0 : TopicProduceData0) : TopicProduceData0 :=
  { Name := y.Name,
    Partitions := y.Partitions.or t0.Partitions }

/-- An array of structures is nil. -/
def TopicProduceData0.Nulls (_version : Int16) (y : TopicProduceData0) : Prop :=
  y.Partitions = none

/-- `TopicProduceData0` in use again. -/
def TopicProduceData0.reuse : Reuse TopicProduceData0.type := { over := TopicProduceData0.over, Nulls := TopicProduceData0.Nulls }

/-- The same after the first `k` statements of `Decode`. -/
def TopicProduceData0.overAt (_version : Int16) (k : Nat) (y t0 : TopicProduceData0) : TopicProduceData0 :=
  { Name := upto k 0 (y.Name) t0.Name,
    Partitions := y.Partitions.or t0.Partitions }

theorem TopicProduceData0.sim (v : Int16) (t0 : TopicProduceData0) : Sim (TopicProduceData0.overAt v 0 · t0) (TopicProduceData0.overAt v 2 · t0) (TopicProduceData0.decode v) :=
  ((.field fun _ _ => rfl) : Sim (TopicProduceData0.overAt v 0 · t0) (TopicProduceData0.overAt v 1 · t0) _)
    |>.andThen ((.structs (fun _ _ => rfl) fun _ => rfl) : Sim (TopicProduceData0.overAt v 1 · t0) (TopicProduceData0.overAt v 2 · t0) _)
theorem TopicProduceData0.reusable : TopicProduceData0.reuse.Holds TopicProduceData0.layout where
  decode v t0 d := by
    have h := TopicProduceData0.sim v t0 {} d
    have e : TopicProduceData0.overAt v 0 {} t0 = t0 := by first | rfl | (simp only [TopicProduceData0.overAt, upto_zero, Option.none_or, ite_self] <;> rfl)
    simp only [e] at h
    exact h
  same v y t0 h := (app_congr rfl (same_or fun hn => h (hn)))
  stale v y h := by
    obtain h := h
    · exact ⟨({ Partitions := some [{}] } : TopicProduceData0), (app_ne_right rfl (stale_or h))⟩

/-- What `t0` becomes where a new `ProduceRequest` becomes `y`. -/
def ProduceRequest.over (version : Int16) (y t0 : ProduceRequest) : ProduceRequest :=
  { TransactionalId := if version ≥ 3 then y.TransactionalId else t0.TransactionalId,
    Acks := y.Acks,
    TimeoutMs := y.TimeoutMs,
    Topics := y.Topics.or t0.Topics }

/-- An array of structures is nil. -/
def ProduceRequest.Nulls (_version : Int16) (y : ProduceRequest) : Prop :=
  y.Topics = none

/-- `ProduceRequest` in use again. -/
def ProduceRequest.reuse : Reuse ProduceRequest.type := { over := ProduceRequest.over, Nulls := ProduceRequest.Nulls }

/-- The same after the first `k` statements of `Decode`. -/
def ProduceRequest.overAt (version : Int16) (k : Nat) (y t0 : ProduceRequest) : ProduceRequest :=
  { TransactionalId := upto k 0 (if version ≥ 3 then y.TransactionalId else t0.TransactionalId) t0.TransactionalId,
    Acks := upto k 1 (y.Acks) t0.Acks,
    TimeoutMs := upto k 2 (y.TimeoutMs) t0.TimeoutMs,
    Topics := y.Topics.or t0.Topics }

theorem ProduceRequest.sim (v : Int16) (t0 : ProduceRequest) : Sim (ProduceRequest.overAt v 0 · t0) (ProduceRequest.overAt v 4 · t0) (ProduceRequest.decode v) :=
  ((.onlyIf (fun hc => .field fun _ _ => by simp only [ProduceRequest.overAt, if_pos hc]; rfl) fun hc _ => by simp only [ProduceRequest.overAt, if_neg hc]; rfl) : Sim (ProduceRequest.overAt v 0 · t0) (ProduceRequest.overAt v 1 · t0) _)
    |>.andThen ((.field fun _ _ => rfl) : Sim (ProduceRequest.overAt v 1 · t0) (ProduceRequest.overAt v 2 · t0) _)
    |>.andThen ((.field fun _ _ => rfl) : Sim (ProduceRequest.overAt v 2 · t0) (ProduceRequest.overAt v 3 · t0) _)
    |>.andThen ((.structs (fun _ _ => rfl) fun _ => rfl) : Sim (ProduceRequest.overAt v 3 · t0) (ProduceRequest.overAt v 4 · t0) _)
theorem ProduceRequest.reusable : ProduceRequest.reuse.Holds ProduceRequest.layout where
  decode v t0 d := by
    have h := ProduceRequest.sim v t0 {} d
    have e : ProduceRequest.overAt v 0 {} t0 = t0 := by first | rfl | (simp only [ProduceRequest.overAt, upto_zero, Option.none_or, ite_self] <;> rfl)
    simp only [e] at h
    exact h
  same v y t0 h := (app_congr (app_congr (app_congr (again_opt Wire.string y.TransactionalId t0.TransactionalId) rfl) rfl) (same_or fun hn => h (hn)))
  stale v y h := by
    obtain h := h
    · exact ⟨({ Topics := some [{}] } : ProduceRequest), (app_ne_right (app_congr (app_congr (again_opt Wire.string y.TransactionalId []) rfl) rfl) (stale_or h))⟩

/-- What `t0` becomes where a new `BatchIndexAndErrorMessage0` becomes `y`. -/
def BatchIndexAndErrorMessage0.over (version : Int16) (y t0 : BatchIndexAndErrorMessage0) : BatchIndexAndErrorMessage0 :=
  { BatchIndex := if version ≥ 8 then y.BatchIndex else t0.BatchIndex,
    BatchIndexErrorMessage := if version ≥ 8 then y.BatchIndexErrorMessage else t0.BatchIndexErrorMessage }

/-- An array of structures is nil. -/
def BatchIndexAndErrorMessage0.Nulls (_version : Int16) (_y : BatchIndexAndErrorMessage0) : Prop :=
  False

/-- `BatchIndexAndErrorMessage0` in use again. -/
def BatchIndexAndErrorMessage0.reuse : Reuse BatchIndexAndErrorMessage0.type := { over := BatchIndexAndErrorMessage0.over, Nulls := BatchIndexAndErrorMessage0.Nulls }

/-- The same after the first `k` statements of `Decode`. -/
def BatchIndexAndErrorMessage0.overAt (version : Int16) (k : Nat) (y t0 : BatchIndexAndErrorMessage0) : BatchIndexAndErrorMessage0 :=
  { BatchIndex := upto k 0 (if version ≥ 8 then y.BatchIndex else t0.BatchIndex) t0.BatchIndex,
    BatchIndexErrorMessage := upto k 1 (if version ≥ 8 then y.BatchIndexErrorMessage else t0.BatchIndexErrorMessage) t0.BatchIndexErrorMessage }

theorem BatchIndexAndErrorMessage0.sim (v : Int16) (t0 : BatchIndexAndErrorMessage0) : Sim (BatchIndexAndErrorMessage0.overAt v 0 · t0) (BatchIndexAndErrorMessage0.overAt v 2 · t0) (BatchIndexAndErrorMessage0.decode v) :=
  ((.onlyIf (fun hc => .field fun _ _ => by simp only [BatchIndexAndErrorMessage0.overAt, if_pos hc]; rfl) fun hc _ => by simp only [BatchIndexAndErrorMessage0.overAt, if_neg hc]; rfl) : Sim (BatchIndexAndErrorMessage0.overAt v 0 · t0) (BatchIndexAndErrorMessage0.overAt v 1 · t0) _)
    |>.andThen ((.onlyIf (fun hc => .field fun _ _ => by simp only [BatchIndexAndErrorMessage0.overAt, if_pos hc]; rfl) fun hc _ => by simp only [BatchIndexAndErrorMessage0.overAt, if_neg hc]; rfl) : Sim (BatchIndexAndErrorMessage0.overAt v 1 · t0) (BatchIndexAndErrorMessage0.overAt v 2 · t0) _)
theorem BatchIndexAndErrorMessage0.reusable : BatchIndexAndErrorMessage0.reuse.Holds BatchIndexAndErrorMessage0.layout where
  decode v t0 d := by
    have h := BatchIndexAndErrorMessage0.sim v t0 {} d
    have e : BatchIndexAndErrorMessage0.overAt v 0 {} t0 = t0 := by first | rfl | (simp only [BatchIndexAndErrorMessage0.overAt, upto_zero, Option.none_or, ite_self] <;> rfl)
    simp only [e] at h
    exact h
  same v y t0 _h := (app_congr (again_opt Wire.int32 y.BatchIndex t0.BatchIndex) (again_opt Wire.string y.BatchIndexErrorMessage t0.BatchIndexErrorMessage))
  stale _ _ h := h.elim

/-- What `t0` becomes where a new `PartitionProduceResponse0` becomes `y`. -/
def PartitionProduceResponse0.over (version : Int16) (y t0 : PartitionProduceResponse0) : PartitionProduceResponse0 :=
  { PartitionIndex := y.PartitionIndex,
    ErrorCode := y.ErrorCode,
    BaseOffset := y.BaseOffset,
    LogAppendTimeMs := if version ≥ 2 then y.LogAppendTimeMs else t0.LogAppendTimeMs,
    LogStartOffset := if version ≥ 5 then y.LogStartOffset else t0.LogStartOffset,
    RecordErrors := if version ≥ 8 then y.RecordErrors.or t0.RecordErrors else t0.RecordErrors,
    ErrorMessage := if version ≥ 8 then y.ErrorMessage else t0.ErrorMessage }

/-- An array of structures is nil. -/
def PartitionProduceResponse0.Nulls (version : Int16) (y : PartitionProduceResponse0) : Prop :=
  (version ≥ 8) ∧ y.RecordErrors = none

/-- `PartitionProduceResponse0` in use again. -/
def PartitionProduceResponse0.reuse : Reuse PartitionProduceResponse0.type := { over := PartitionProduceResponse0.over, Nulls := PartitionProduceResponse0.Nulls }

/-- The same after the first `k` statements of `Decode`. -/
def PartitionProduceResponse0.overAt (version : Int16) (k : Nat) (y t0 : PartitionProduceResponse0) : PartitionProduceResponse0 :=
  { PartitionIndex := upto k 0 (y.PartitionIndex) t0.PartitionIndex,
    ErrorCode := upto k 1 (y.ErrorCode) t0.ErrorCode,
    BaseOffset := upto k 2 (y.BaseOffset) t0.BaseOffset,
    LogAppendTimeMs := upto k 3 (if version ≥ 2 then y.LogAppendTimeMs else t0.LogAppendTimeMs) t0.LogAppendTimeMs,
    LogStartOffset := upto k 4 (if version ≥ 5 then y.LogStartOffset else t0.LogStartOffset) t0.LogStartOffset,
    RecordErrors := if version ≥ 8 then y.RecordErrors.or t0.RecordErrors else t0.RecordErrors,
    ErrorMessage := upto k 6 (if version ≥ 8 then y.ErrorMessage else t0.ErrorMessage) t0.ErrorMessage }

theorem PartitionProduceResponse0.sim (v : Int16) (t0 : PartitionProduceResponse0) : Sim (PartitionProduceResponse0.overAt v 0 · t0) (PartitionProduceResponse0.overAt v 7 · t0) (PartitionProduceResponse0.decode v) :=
  ((.field fun _ _ => rfl) : Sim (PartitionProduceResponse0.overAt v 0 · t0) (PartitionProduceResponse0.overAt v 1 · t0) _)
    |>.andThen ((.field fun _ _ => rfl) : Sim (PartitionProduceResponse0.overAt v 1 · t0) (PartitionProduceResponse0.overAt v 2 · t0) _)
    |>.andThen ((.field fun _ _ => rfl) : Sim (PartitionProduceResponse0.overAt v 2 · t0) (PartitionProduceResponse0.overAt v 3 · t0) _)
    |>.andThen ((.onlyIf (fun hc => .field fun _ _ => by simp only [PartitionProduceResponse0.overAt, if_pos hc]; rfl) fun hc _ => by simp only [PartitionProduceResponse0.overAt, if_neg hc]; rfl) : Sim (PartitionProduceResponse0.overAt v 3 · t0) (PartitionProduceResponse0.overAt v 4 · t0) _)
    |>.andThen ((.onlyIf (fun hc => .field fun _ _ => by simp only [PartitionProduceResponse0.overAt, if_pos hc]; rfl) fun hc _ => by simp only [PartitionProduceResponse0.overAt, if_neg hc]; rfl) : Sim (PartitionProduceResponse0.overAt v 4 · t0) (PartitionProduceResponse0.overAt v 5 · t0) _)
    |>.andThen ((.onlyIf (fun hc => .structs (fun _ _ => by simp only [PartitionProduceResponse0.overAt, if_pos hc]; rfl) fun _ => by simp only [PartitionProduceResponse0.overAt, if_pos hc]; rfl) fun hc _ => by simp only [PartitionProduceResponse0.overAt, if_neg hc]; rfl) : Sim (PartitionProduceResponse0.overAt v 5 · t0) (PartitionProduceResponse0.overAt v 6 · t0) _)
    |>.andThen ((.onlyIf (fun hc => .field fun _ _ => by simp only [PartitionProduceResponse0.overAt, if_pos hc]; rfl) fun hc _ => by simp only [PartitionProduceResponse0.overAt, if_neg hc]; rfl) : Sim (PartitionProduceResponse0.overAt v 6 · t0) (PartitionProduceResponse0.overAt v 7 · t0) _)
theorem PartitionProduceResponse0.reusable : PartitionProduceResponse0.reuse.Holds PartitionProduceResponse0.layout where
  decode v t0 d := by
    have h := PartitionProduceResponse0.sim v t0 {} d
    have e : PartitionProduceResponse0.overAt v 0 {} t0 = t0 := by first | rfl | (simp only [PartitionProduceResponse0.overAt, upto_zero, Option.none_or, ite_self] <;> rfl)
    simp only [e] at h
    exact h
  same v y t0 h := (app_congr (app_congr (app_congr (app_congr (app_congr (app_congr rfl rfl) rfl) (again_opt Wire.int64 y.LogAppendTimeMs t0.LogAppendTimeMs)) (again_opt Wire.int64 y.LogStartOffset t0.LogStartOffset)) (same_when fun hc hn => h (⟨hc, hn⟩))) (again_opt Wire.string y.ErrorMessage t0.ErrorMessage))
  stale v y h := by
    obtain ⟨hc, h⟩ := h
    · exact ⟨({ RecordErrors := some [{}] } : PartitionProduceResponse0), (app_ne_left (app_ne_right (app_congr (app_congr (app_congr (app_congr rfl rfl) rfl) (again_opt Wire.int64 y.LogAppendTimeMs 0)) (again_opt Wire.int64 y.LogStartOffset 0)) (stale_when hc h)) (again_opt Wire.string y.ErrorMessage []))⟩

/-- What `t0` becomes where a new `TopicProduceResponse0` becomes `y`. -/
def TopicProduceResponse0.over (_version : Int16) (y t0 : TopicProduceResponse0) : TopicProduceResponse0 :=
  { Name := y.Name,
    Partitions := y.Partitions.or t0.Partitions }

/-- An array of structures is nil. -/
def TopicProduceResponse0.Nulls (_version : Int16) (y : TopicProduceResponse0) : Prop :=
  y.Partitions = none

/-- `TopicProduceResponse0` in use again. -/
def TopicProduceResponse0.reuse : Reuse TopicProduceResponse0.type := { over := TopicProduceResponse0.over, Nulls := TopicProduceResponse0.Nulls }

/-- The same after the first `k` statements of `Decode`. -/
def TopicProduceResponse0.overAt (_version : Int16) (k : Nat) (y t0 : TopicProduceResponse0) : TopicProduceResponse0 :=
  { Name := upto k 0 (y.Name) t0.Name,
    Partitions := y.Partitions.or t0.Partitions }

theorem TopicProduceResponse0.sim (v : Int16) (t0 : TopicProduceResponse0) : Sim (TopicProduceResponse0.overAt v 0 · t0) (TopicProduceResponse0.overAt v 2 · t0) (TopicProduceResponse0.decode v) :=
  ((.field fun _ _ => rfl) : Sim (TopicProduceResponse0.overAt v 0 · t0) (TopicProduceResponse0.overAt v 1 · t0) _)
    |>.andThen ((.structs (fun _ _ => rfl) fun _ => rfl) : Sim (TopicProduceResponse0.overAt v 1 · t0) (TopicProduceResponse0.overAt v 2 · t0) _)
theorem TopicProduceResponse0.reusable : TopicProduceResponse0.reuse.Holds TopicProduceResponse0.layout where
  decode v t0 d := by
    have h := TopicProduceResponse0.sim v t0 {} d
    have e : TopicProduceResponse0.overAt v 0 {} t0 = t0 := by first | rfl | (simp only [TopicProduceResponse0.overAt, upto_zero, Option.none_or, ite_self] <;> rfl)
    simp only [e] at h
    exact h
  same v y t0 h := (app_congr rfl (same_or fun hn => h (hn)))
  stale v y h := by
    obtain h := h
    · exact ⟨({ Partitions := some [{}] } : TopicProduceResponse0), (app_ne_right rfl (stale_or h))⟩

/-- What `t0` becomes where a new `ProduceResponse` becomes `y`. -/
def ProduceResponse.over (version : Int16) (y t0 : ProduceResponse) : ProduceResponse :=
  { Responses := y.Responses.or t0.Responses,
    ThrottleTimeMs := if version ≥ 1 then y.ThrottleTimeMs else t0.ThrottleTimeMs }

/-- An array of structures is nil. -/
def ProduceResponse.Nulls (_version : Int16) (y : ProduceResponse) : Prop :=
  y.Responses = none

/-- `ProduceResponse` in use again. -/
def ProduceResponse.reuse : Reuse ProduceResponse.type := { over := ProduceResponse.over, Nulls := ProduceResponse.Nulls }

/-- The same after the first `k` statements of `Decode`. -/
def ProduceResponse.overAt (version : Int16) (k : Nat) (y t0 : ProduceResponse) : ProduceResponse :=
  { Responses := y.Responses.or t0.Responses,
    ThrottleTimeMs := upto k 1 (if version ≥ 1 then y.ThrottleTimeMs else t0.ThrottleTimeMs) t0.ThrottleTimeMs }

theorem ProduceResponse.sim (v : Int16) (t0 : ProduceResponse) : Sim (ProduceResponse.overAt v 0 · t0) (ProduceResponse.overAt v 2 · t0) (ProduceResponse.decode v) :=
  ((.structs (fun _ _ => rfl) fun _ => rfl) : Sim (ProduceResponse.overAt v 0 · t0) (ProduceResponse.overAt v 1 · t0) _)
    |>.andThen ((.onlyIf (fun hc => .field fun _ _ => by simp only [ProduceResponse.overAt, if_pos hc]; rfl) fun hc _ => by simp only [ProduceResponse.overAt, if_neg hc]; rfl) : Sim (ProduceResponse.overAt v 1 · t0) (ProduceResponse.overAt v 2 · t0) _)
theorem ProduceResponse.reusable : ProduceResponse.reuse.Holds ProduceResponse.layout where
  decode v t0 d := by
    have h := ProduceResponse.sim v t0 {} d
    have e : ProduceResponse.overAt v 0 {} t0 = t0 := by first | rfl | (simp only [ProduceResponse.overAt, upto_zero, Option.none_or, ite_self] <;> rfl)
    simp only [e] at h
    exact h
  same v y t0 h := (app_congr (same_or fun hn => h (hn)) (again_opt Wire.int32 y.ThrottleTimeMs t0.ThrottleTimeMs))
  stale v y h := by
    obtain h := h
    · exact ⟨({ Responses := some [{}] } : ProduceResponse), (app_ne_left (stale_or h) (again_opt Wire.int32 y.ThrottleTimeMs 0))⟩

/-- The structures of the Produce messages. -/
def reuseProduce : List (Σ (M : MsgType) (_ : Layout M), Reuse M) :=
  [⟨ProduceRequest.type, ProduceRequest.layout, ProduceRequest.reuse⟩,
   ⟨TopicProduceData0.type, TopicProduceData0.layout, TopicProduceData0.reuse⟩,
   ⟨PartitionProduceData0.type, PartitionProduceData0.layout, PartitionProduceData0.reuse⟩,
   ⟨ProduceResponse.type, ProduceResponse.layout, ProduceResponse.reuse⟩,
   ⟨TopicProduceResponse0.type, TopicProduceResponse0.layout, TopicProduceResponse0.reuse⟩,
   ⟨PartitionProduceResponse0.type, PartitionProduceResponse0.layout, PartitionProduceResponse0.reuse⟩,
   ⟨BatchIndexAndErrorMessage0.type, BatchIndexAndErrorMessage0.layout, BatchIndexAndErrorMessage0.reuse⟩]
theorem reuseProduce_holds : ∀ p ∈ reuseProduce, p.2.2.Holds p.2.1 := by
  unfold reuseProduce
  simp only [List.forall_mem_cons]
  exact ⟨ProduceRequest.reusable, TopicProduceData0.reusable, PartitionProduceData0.reusable, ProduceResponse.reusable, TopicProduceResponse0.reusable, PartitionProduceResponse0.reusable, BatchIndexAndErrorMessage0.reusable, fun _ h => absurd h (by simp)⟩

end Kafka.Msg
