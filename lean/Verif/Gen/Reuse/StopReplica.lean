import Verif.Message.Reuse
import Verif.Gen.Spec.StopReplica
/-!
Generated by tools/gen_messages.py: decoding into StopReplica messages used before.
-/
set_option linter.unusedSimpArgs false
set_option linter.unusedVariables false
namespace Kafka.Msg

/-- What `t0` becomes where a new `StopReplicaPartitionV05` becomes `y`. -/
def StopReplicaPartitionV05.over (version : Int16) (y t0 : StopReplicaPartitionV05) : StopReplicaPartitionV05 :=
  { TopicName := if version ≥ 0 ∧ version ≤ 0 then y.TopicName else t0.TopicName,
    PartitionIndex := if version ≥ 0 ∧ version ≤ 0 then y.PartitionIndex else t0.PartitionIndex }

/-- An array of structures is nil. -/
def StopReplicaPartitionV05.Nulls (_version : Int16) (_y : StopReplicaPartitionV05) : Prop :=
  False

/-- `StopReplicaPartitionV05` in use again. -/
def StopReplicaPartitionV05.reuse : Reuse StopReplicaPartitionV05.type := { over := StopReplicaPartitionV05.over, Nulls := StopReplicaPartitionV05.Nulls }

/-- The same after the first `k` statements of `Decode`. -/
def StopReplicaPartitionV05.overAt (version : Int16) (k : Nat) (y t0 : StopReplicaPartitionV05) : StopReplicaPartitionV05 :=
  { TopicName := upto k 0 (if version ≥ 0 ∧ version ≤ 0 then y.TopicName else t0.TopicName) t0.TopicName,
    PartitionIndex := upto k 1 (if version ≥ 0 ∧ version ≤ 0 then y.PartitionIndex else t0.PartitionIndex) t0.PartitionIndex }

theorem StopReplicaPartitionV05.sim (v : Int16) (t0 : StopReplicaPartitionV05) : Sim (StopReplicaPartitionV05.overAt v 0 · t0) (StopReplicaPartitionV05.overAt v 2 · t0) (StopReplicaPartitionV05.decode v) :=
  ((.onlyIf (fun hc => .field fun _ _ => by simp only [StopReplicaPartitionV05.overAt, if_pos hc]; rfl) fun hc _ => by simp only [StopReplicaPartitionV05.overAt, if_neg hc]; rfl) : Sim (StopReplicaPartitionV05.overAt v 0 · t0) (StopReplicaPartitionV05.overAt v 1 · t0) _)
    |>.andThen ((.onlyIf (fun hc => .field fun _ _ => by simp only [StopReplicaPartitionV05.overAt, if_pos hc]; rfl) fun hc _ => by simp only [StopReplicaPartitionV05.overAt, if_neg hc]; rfl) : Sim (StopReplicaPartitionV05.overAt v 1 · t0) (StopReplicaPartitionV05.overAt v 2 · t0) _)
theorem StopReplicaPartitionV05.reusable : StopReplicaPartitionV05.reuse.Holds StopReplicaPartitionV05.layout where
  decode v t0 d := by
    have h := StopReplicaPartitionV05.sim v t0 {} d
    have e : StopReplicaPartitionV05.overAt v 0 {} t0 = t0 := by first | rfl | (simp only [StopReplicaPartitionV05.overAt, upto_zero, Option.none_or, ite_self] <;> rfl)
    simp only [e] at h
    exact h
  same v y t0 _h := (app_congr (again_opt Wire.string y.TopicName t0.TopicName) (again_opt Wire.int32 y.PartitionIndex t0.PartitionIndex))
  stale _ _ h := h.elim

/-- What `t0` becomes where a new `StopReplicaTopic5` becomes `y`. -/
def StopReplicaTopic5.over (version : Int16) (y t0 : StopReplicaTopic5) : StopReplicaTopic5 :=
  { Name := if version ≥ 1 then y.Name else t0.Name,
    PartitionIndexes := if version ≥ 1 then y.PartitionIndexes else t0.PartitionIndexes }

/-- An array of structures is nil. -/
def StopReplicaTopic5.Nulls (_version : Int16) (_y : StopReplicaTopic5) : Prop :=
  False

/-- `StopReplicaTopic5` in use again. -/
def StopReplicaTopic5.reuse : Reuse StopReplicaTopic5.type := { over := StopReplicaTopic5.over, Nulls := StopReplicaTopic5.Nulls }

/-- The same after the first `k` statements of `Decode`. -/
def StopReplicaTopic5.overAt (version : Int16) (k : Nat) (y t0 : StopReplicaTopic5) : StopReplicaTopic5 :=
  { Name := upto k 0 (if version ≥ 1 then y.Name else t0.Name) t0.Name,
    PartitionIndexes := upto k 1 (if version ≥ 1 then y.PartitionIndexes else t0.PartitionIndexes) t0.PartitionIndexes }

theorem StopReplicaTopic5.sim (v : Int16) (t0 : StopReplicaTopic5) : Sim (StopReplicaTopic5.overAt v 0 · t0) (StopReplicaTopic5.overAt v 2 · t0) (StopReplicaTopic5.decode v) :=
  ((.onlyIf (fun hc => .field fun _ _ => by simp only [StopReplicaTopic5.overAt, if_pos hc]; rfl) fun hc _ => by simp only [StopReplicaTopic5.overAt, if_neg hc]; rfl) : Sim (StopReplicaTopic5.overAt v 0 · t0) (StopReplicaTopic5.overAt v 1 · t0) _)
    |>.andThen ((.onlyIf (fun hc => .field fun _ _ => by simp only [StopReplicaTopic5.overAt, if_pos hc]; rfl) fun hc _ => by simp only [StopReplicaTopic5.overAt, if_neg hc]; rfl) : Sim (StopReplicaTopic5.overAt v 1 · t0) (StopReplicaTopic5.overAt v 2 · t0) _)
theorem StopReplicaTopic5.reusable : StopReplicaTopic5.reuse.Holds StopReplicaTopic5.layout where
  decode v t0 d := by
    have h := StopReplicaTopic5.sim v t0 {} d
    have e : StopReplicaTopic5.overAt v 0 {} t0 = t0 := by first | rfl | (simp only [StopReplicaTopic5.overAt, upto_zero, Option.none_or, ite_self] <;> rfl)
    simp only [e] at h
    exact h
  same v y t0 _h := (app_congr (again_opt Wire.string y.Name t0.Name) (again_opt Wire.int32Array y.PartitionIndexes t0.PartitionIndexes))
  stale _ _ h := h.elim

/-- What `t0` becomes where a new `StopReplicaRequest` becomes `y`. -/
def StopReplicaRequest.over (version : Int16) (y t0 : StopReplicaRequest) : StopReplicaRequest :=
  { ControllerId := y.ControllerId,
    ControllerEpoch := y.ControllerEpoch,
    BrokerEpoch := if version ≥ 1 then y.BrokerEpoch else t0.BrokerEpoch,
    DeletePartitions := y.DeletePartitions,
    UngroupedPartitions := if version ≥ 0 ∧ version ≤ 0 then y.UngroupedPartitions.or t0.UngroupedPartitions else t0.UngroupedPartitions,
    Topics := if version ≥ 1 then y.Topics.or t0.Topics else t0.Topics }

/-- An array of structures is nil. -/
def StopReplicaRequest.Nulls (version : Int16) (y : StopReplicaRequest) : Prop :=
  (version ≥ 0 ∧ version ≤ 0) ∧ y.UngroupedPartitions = none ∨ (version ≥ 1) ∧ y.Topics = none

/-- `StopReplicaRequest` in use again. -/
def StopReplicaRequest.reuse : Reuse StopReplicaRequest.type := { over := StopReplicaRequest.over, Nulls := StopReplicaRequest.Nulls }

/-- The same after the first `k` statements of `Decode`. -/
def StopReplicaRequest.overAt (version : Int16) (k : Nat) (y t0 : StopReplicaRequest) : StopReplicaRequest :=
  { ControllerId := upto k 0 (y.ControllerId) t0.ControllerId,
    ControllerEpoch := upto k 1 (y.ControllerEpoch) t0.ControllerEpoch,
    BrokerEpoch := upto k 2 (if version ≥ 1 then y.BrokerEpoch else t0.BrokerEpoch) t0.BrokerEpoch,
    DeletePartitions := upto k 3 (y.DeletePartitions) t0.DeletePartitions,
    UngroupedPartitions := if version ≥ 0 ∧ version ≤ 0 then y.UngroupedPartitions.or t0.UngroupedPartitions else t0.UngroupedPartitions,
    Topics := if version ≥ 1 then y.Topics.or t0.Topics else t0.Topics }

theorem StopReplicaRequest.sim (v : Int16) (t0 : StopReplicaRequest) : Sim (StopReplicaRequest.overAt v 0 · t0) (StopReplicaRequest.overAt v 6 · t0) (StopReplicaRequest.decode v) :=
  ((.field fun _ _ => rfl) : Sim (StopReplicaRequest.overAt v 0 · t0) (StopReplicaRequest.overAt v 1 · t0) _)
    |>.andThen ((.field fun _ _ => rfl) : Sim (StopReplicaRequest.overAt v 1 · t0) (StopReplicaRequest.overAt v 2 · t0) _)
    |>.andThen ((.onlyIf (fun hc => .field fun _ _ => by simp only [StopReplicaRequest.overAt, if_pos hc]; rfl) fun hc _ => by simp only [StopReplicaRequest.overAt, if_neg hc]; rfl) : Sim (StopReplicaRequest.overAt v 2 · t0) (StopReplicaRequest.overAt v 3 · t0) _)
    |>.andThen ((.field fun _ _ => rfl) : Sim (StopReplicaRequest.overAt v 3 · t0) (StopReplicaRequest.overAt v 4 · t0) _)
    |>.andThen ((.onlyIf (fun hc => .structs (fun _ _ => by simp only [StopReplicaRequest.overAt, if_pos hc]; rfl) fun _ => by simp only [StopReplicaRequest.overAt, if_pos hc]; rfl) fun hc _ => by simp only [StopReplicaRequest.overAt, if_neg hc]; rfl) : Sim (StopReplicaRequest.overAt v 4 · t0) (StopReplicaRequest.overAt v 5 · t0) _)
    |>.andThen ((.onlyIf (fun hc => .structs (fun _ _ => by simp only [StopReplicaRequest.overAt, if_pos hc]; rfl) fun _ => by simp only [StopReplicaRequest.overAt, if_pos hc]; rfl) fun hc _ => by simp only [StopReplicaRequest.overAt, if_neg hc]; rfl) : Sim (StopReplicaRequest.overAt v 5 · t0) (StopReplicaRequest.overAt v 6 · t0) _)
theorem StopReplicaRequest.reusable : StopReplicaRequest.reuse.Holds StopReplicaRequest.layout where
  decode v t0 d := by
    have h := StopReplicaRequest.sim v t0 {} d
    have e : StopReplicaRequest.overAt v 0 {} t0 = t0 := by first | rfl | (simp only [StopReplicaRequest.overAt, upto_zero, Option.none_or, ite_self] <;> rfl)
    simp only [e] at h
    exact h
  same v y t0 h := (app_congr (app_congr (app_congr (app_congr (app_congr rfl rfl) (again_opt Wire.int64 y.BrokerEpoch t0.BrokerEpoch)) rfl) (same_when fun hc hn => h (Or.inl ⟨hc, hn⟩))) (same_when fun hc hn => h (Or.inr (⟨hc, hn⟩))))
  stale v y h := by
    obtain ⟨hc, h⟩ | ⟨hc, h⟩ := h
    · exact ⟨({ UngroupedPartitions := some [{}] } : StopReplicaRequest), (app_ne_left (app_ne_right (app_congr (app_congr (app_congr rfl rfl) (again_opt Wire.int64 y.BrokerEpoch 0)) rfl) (stale_when hc h)) none_when)⟩
    · exact ⟨({ Topics := some [{}] } : StopReplicaRequest), (app_ne_right (app_congr (app_congr (app_congr (app_congr rfl rfl) (again_opt Wire.int64 y.BrokerEpoch 0)) rfl) none_when) (stale_when hc h))⟩

/-- What `t0` becomes where a new `StopReplicaPartitionError5` becomes `y`. -/
def StopReplicaPartitionError5.over (_version : Int16) (y _t0 : StopReplicaPartitionError5) : StopReplicaPartitionError5 :=
  { TopicName := y.TopicName,
    PartitionIndex := y.PartitionIndex,
    ErrorCode := y.ErrorCode }

/-- An array of structures is nil. -/
def StopReplicaPartitionError5.Nulls (_version : Int16) (_y : StopReplicaPartitionError5) : Prop :=
  False

/-- `StopReplicaPartitionError5` in use again. -/
def StopReplicaPartitionError5.reuse : Reuse StopReplicaPartitionError5.type := { over := StopReplicaPartitionError5.over, Nulls := StopReplicaPartitionError5.Nulls }

/-- The same after the first `k` statements of `Decode`. -/
def StopReplicaPartitionError5.overAt (_version : Int16) (k : Nat) (y t0 : StopReplicaPartitionError5) : StopReplicaPartitionError5 :=
  { TopicName := upto k 0 (y.TopicName) t0.TopicName,
    PartitionIndex := upto k 1 (y.PartitionIndex) t0.PartitionIndex,
    ErrorCode := upto k 2 (y.ErrorCode) t0.ErrorCode }

theorem StopReplicaPartitionError5.sim (v : Int16) (t0 : StopReplicaPartitionError5) : Sim (StopReplicaPartitionError5.overAt v 0 · t0) (StopReplicaPartitionError5.overAt v 3 · t0) (StopReplicaPartitionError5.decode v) :=
  ((.field fun _ _ => rfl) : Sim (StopReplicaPartitionError5.overAt v 0 · t0) (StopReplicaPartitionError5.overAt v 1 · t0) _)
    |>.andThen ((.field fun _ _ => rfl) : Sim (StopReplicaPartitionError5.overAt v 1 · t0) (StopReplicaPartitionError5.overAt v 2 · t0) _)
    |>.andThen ((.field fun _ _ => rfl) : Sim (StopReplicaPartitionError5.overAt v 2 · t0) (StopReplicaPartitionError5.overAt v 3 · t0) _)
theorem StopReplicaPartitionError5.reusable : StopReplicaPartitionError5.reuse.Holds StopReplicaPartitionError5.layout where
  decode v t0 d := by
    have h := StopReplicaPartitionError5.sim v t0 {} d
    have e : StopReplicaPartitionError5.overAt v 0 {} t0 = t0 := by first | rfl | (simp only [StopReplicaPartitionError5.overAt, upto_zero, Option.none_or, ite_self] <;> rfl)
    simp only [e] at h
    exact h
  same v y t0 _h := (app_congr (app_congr rfl rfl) rfl)
  stale _ _ h := h.elim

/-- What `t0` becomes where a new `StopReplicaResponse` becomes `y`. -/
def StopReplicaResponse.over (_version : Int16) (y t0 : StopReplicaResponse) : StopReplicaResponse :=
  { ErrorCode := y.ErrorCode,
    PartitionErrors := y.PartitionErrors.or t0.PartitionErrors }

/-- An array of structures is nil. -/
def StopReplicaResponse.Nulls (_version : Int16) (y : StopReplicaResponse) : Prop :=
  y.PartitionErrors = none

/-- `StopReplicaResponse` in use again. -/
def StopReplicaResponse.reuse : Reuse StopReplicaResponse.type := { over := StopReplicaResponse.over, Nulls := StopReplicaResponse.Nulls }

/-- The same after the first `k` statements of `Decode`. -/
def StopReplicaResponse.overAt (_version : Int16) (k : Nat) (y t0 : StopReplicaResponse) : StopReplicaResponse :=
  { ErrorCode := upto k 0 (y.ErrorCode) t0.ErrorCode,
    PartitionErrors := y.PartitionErrors.or t0.PartitionErrors }

theorem StopReplicaResponse.sim (v : Int16) (t0 : StopReplicaResponse) : Sim (StopReplicaResponse.overAt v 0 · t0) (StopReplicaResponse.overAt v 2 · t0) (StopReplicaResponse.decode v) :=
  ((.field fun _ _ => rfl) : Sim (StopReplicaResponse.overAt v 0 · t0) (StopReplicaResponse.overAt v 1 · t0) _)
    |>.andThen ((.structs (fun _ _ => rfl) fun _ => rfl) : Sim (StopReplicaResponse.overAt v 1 · t0) (StopReplicaResponse.overAt v 2 · t0) _)
theorem StopReplicaResponse.reusable : StopReplicaResponse.reuse.Holds StopReplicaResponse.layout where
  decode v t0 d := by
    have h := StopReplicaResponse.sim v t0 {} d
    have e : StopReplicaResponse.overAt v 0 {} t0 = t0 := by first | rfl | (simp only [StopReplicaResponse.overAt, upto_zero, Option.none_or, ite_self] <;> rfl)
    simp only [e] at h
    exact h
  same v y t0 h := (app_congr rfl (same_or fun hn => h (hn)))
  stale v y h := by
    obtain h := h
    · exact ⟨({ PartitionErrors := some [{}] } : StopReplicaResponse), (app_ne_right rfl (stale_or h))⟩

/-- The structures of the StopReplica messages. -/
def reuseStopReplica : List (Σ (M : MsgType) (_ : Layout M), Reuse M) :=
  [⟨StopReplicaRequest.type, StopReplicaRequest.layout, StopReplicaRequest.reuse⟩,
   ⟨StopReplicaPartitionV05.type, StopReplicaPartitionV05.layout, StopReplicaPartitionV05.reuse⟩,
   ⟨StopReplicaTopic5.type, StopReplicaTopic5.layout, StopReplicaTopic5.reuse⟩,
   ⟨StopReplicaResponse.type, StopReplicaResponse.layout, StopReplicaResponse.reuse⟩,
   ⟨StopReplicaPartitionError5.type, StopReplicaPartitionError5.layout, StopReplicaPartitionError5.reuse⟩]
theorem reuseStopReplica_holds : ∀ p ∈ reuseStopReplica, p.2.2.Holds p.2.1 := by
  unfold reuseStopReplica
  simp only [List.forall_mem_cons]
  exact ⟨StopReplicaRequest.reusable, StopReplicaPartitionV05.reusable, StopReplicaTopic5.reusable, StopReplicaResponse.reusable, StopReplicaPartitionError5.reusable, fun _ h => absurd h (by simp)⟩

end Kafka.Msg
