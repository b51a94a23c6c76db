import Verif.Message.Reuse
import Verif.Gen.Spec.CreatePartitions
/-!
Generated by tools/gen_messages.py: decoding into CreatePartitions messages used before.
-/
set_option linter.unusedSimpArgs false
set_option linter.unusedVariables false
namespace Kafka.Msg

/-- What `t0` becomes where a new `CreatePartitionsAssignment37` becomes `y`. -/
def CreatePartitionsAssignment37.over (_version : Int16) (y _t0 : CreatePartitionsAssignment37) : CreatePartitionsAssignment37 :=
  { BrokerIds := y.BrokerIds }

/-- An array of structures is nil. -/
def CreatePartitionsAssignment37.Nulls (_version : Int16) (_y : CreatePartitionsAssignment37) : Prop :=
  False

/-- `CreatePartitionsAssignment37` in use again. -/
def CreatePartitionsAssignment37.reuse : Reuse CreatePartitionsAssignment37.type := { over := CreatePartitionsAssignment37.over, Nulls := CreatePartitionsAssignment37.Nulls }

/-- The same after the first `k` statements of `Decode`. -/
def CreatePartitionsAssignment37.overAt (_version : Int16) (k : Nat) (y t0 : CreatePartitionsAssignment37) : CreatePartitionsAssignment37 :=
  { BrokerIds := upto k 0 (y.BrokerIds) t0.BrokerIds }

theorem CreatePartitionsAssignment37.sim (v : Int16) (t0 : CreatePartitionsAssignment37) : Sim (CreatePartitionsAssignment37.overAt v 0 · t0) (CreatePartitionsAssignment37.overAt v 1 · t0) (CreatePartitionsAssignment37.decode v) :=
  ((.field fun _ _ => rfl) : Sim (CreatePartitionsAssignment37.overAt v 0 · t0) (CreatePartitionsAssignment37.overAt v 1 · t0) _)
theorem CreatePartitionsAssignment37.reusable : CreatePartitionsAssignment37.reuse.Holds CreatePartitionsAssignment37.layout where
  decode v t0 d := by
    have h := CreatePartitionsAssignment37.sim v t0 {} d
    have e : CreatePartitionsAssignment37.overAt v 0 {} t0 = t0 := by first | rfl | (simp only [CreatePartitionsAssignment37.overAt, upto_zero, Option.none_or, ite_self] <;> rfl)
    simp only [e] at h
    exact h
  same v y t0 _h := rfl
  stale _ _ h := h.elim

/-- What `t0` becomes where a new `CreatePartitionsTopic37` becomes `y`. -/
def CreatePartitionsTopic37.over (_version : Int16) (y t0 : CreatePartitionsTopic37) : CreatePartitionsTopic37 :=
  { Name := y.Name,
    Count := y.Count,
    Assignments := y.Assignments.or t0.Assignments }

/-- An array of structures is nil. -/
def CreatePartitionsTopic37.Nulls (_version : Int16) (y : CreatePartitionsTopic37) : Prop :=
  y.Assignments = none

/-- `CreatePartitionsTopic37` in use again. -/
def CreatePartitionsTopic37.reuse : Reuse CreatePartitionsTopic37.type := { over := CreatePartitionsTopic37.over, Nulls := CreatePartitionsTopic37.Nulls }

/-- The same after the first `k` statements of `Decode`. -/
def CreatePartitionsTopic37.overAt (_version : Int16) (k : Nat) (y t0 : CreatePartitionsTopic37) : CreatePartitionsTopic37 :=
  { Name := upto k 0 (y.Name) t0.Name,
    Count := upto k 1 (y.Count) t0.Count,
    Assignments := y.Assignments.or t0.Assignments }

theorem CreatePartitionsTopic37.sim (v : Int16) (t0 : CreatePartitionsTopic37) : Sim (CreatePartitionsTopic37.overAt v 0 · t0) (CreatePartitionsTopic37.overAt v 3 · t0) (CreatePartitionsTopic37.decode v) :=
  ((.field fun _ _ => rfl) : Sim (CreatePartitionsTopic37.overAt v 0 · t0) (CreatePartitionsTopic37.overAt v 1 · t0) _)
    |>.andThen ((.field fun _ _ => rfl) : Sim (CreatePartitionsTopic37.overAt v 1 · t0) (CreatePartitionsTopic37.overAt v 2 · t0) _)
    |>.andThen ((.structs (fun _ _ => rfl) fun _ => rfl) : Sim (CreatePartitionsTopic37.overAt v 2 · t0) (CreatePartitionsTopic37.overAt v 3 · t0) _)
theorem CreatePartitionsTopic37.reusable : CreatePartitionsTopic37.reuse.Holds CreatePartitionsTopic37.layout where
  decode v t0 d := by
    have h := CreatePartitionsTopic37.sim v t0 {} d
    have e : CreatePartitionsTopic37.overAt v 0 {} t0 = t0 := by first | rfl | (simp only [CreatePartitionsTopic37.overAt, upto_zero, Option.none_or, ite_self] <;> rfl)
    simp only [e] at h
    exact h
  same v y t0 h := (app_congr (app_congr rfl rfl) (same_or fun hn => h (hn)))
  stale v y h := by
    obtain h := h
    · exact ⟨({ Assignments := some [{}] } : CreatePartitionsTopic37), (app_ne_right (app_congr rfl rfl) (stale_or h))⟩

/-- What `t0` becomes where a new `CreatePartitionsRequest` becomes `y`. -/
def CreatePartitionsRequest.over (_version : Int16) (y t0 : CreatePartitionsRequest) : CreatePartitionsRequest :=
  { Topics := y.Topics.or t0.Topics,
    TimeoutMs := y.TimeoutMs,
    ValidateOnly := y.ValidateOnly }

/-- An array of structures is nil. -/
def CreatePartitionsRequest.Nulls (_version : Int16) (y : CreatePartitionsRequest) : Prop :=
  y.Topics = none

/-- `CreatePartitionsRequest` in use again. -/
def CreatePartitionsRequest.reuse : Reuse CreatePartitionsRequest.type := { over := CreatePartitionsRequest.over, Nulls := CreatePartitionsRequest.Nulls }

/-- The same after the first `k` statements of `Decode`. -/
def CreatePartitionsRequest.overAt (_version : Int16) (k : Nat) (y t0 : CreatePartitionsRequest) : CreatePartitionsRequest :=
  { Topics := y.Topics.or t0.Topics,
    TimeoutMs := upto k 1 (y.TimeoutMs) t0.TimeoutMs,
    ValidateOnly := upto k 2 (y.ValidateOnly) t0.ValidateOnly }

theorem CreatePartitionsRequest.sim (v : Int16) (t0 : CreatePartitionsRequest) : Sim (CreatePartitionsRequest.overAt v 0 · t0) (CreatePartitionsRequest.overAt v 3 · t0) (CreatePartitionsRequest.decode v) :=
  ((.structs (fun _ _ => rfl) fun _ => rfl) : Sim (CreatePartitionsRequest.overAt v 0 · t0) (CreatePartitionsRequest.overAt v 1 · t0) _)
    |>.andThen ((.field fun _ _ => rfl) : Sim (CreatePartitionsRequest.overAt v 1 · t0) (CreatePartitionsRequest.overAt v 2 · t0) _)
    |>.andThen ((.field fun _ _ => rfl) : Sim (CreatePartitionsRequest.overAt v 2 · t0) (CreatePartitionsRequest.overAt v 3 · t0) _)
theorem CreatePartitionsRequest.reusable : CreatePartitionsRequest.reuse.Holds CreatePartitionsRequest.layout where
  decode v t0 d := by
    have h := CreatePartitionsRequest.sim v t0 {} d
    have e : CreatePartitionsRequest.overAt v 0 {} t0 = t0 := by first | rfl | (simp only [CreatePartitionsRequest.overAt, upto_zero, Option.none_or, ite_self] <;> rfl)
    simp only [e] at h
    exact h
  same v y t0 h := (app_congr (app_congr (same_or fun hn => h (hn)) rfl) rfl)
  stale v y h := by
    obtain h := h
    · exact ⟨({ Topics := some [{}] } : CreatePartitionsRequest), (app_ne_left (app_ne_left (stale_or h) rfl) rfl)⟩

/-- What `t0` becomes where a new `CreatePartitionsTopicResult37` becomes `y`. -/
def CreatePartitionsTopicResult37.over (_version : Int16) (y _t0 : CreatePartitionsTopicResult37) : CreatePartitionsTopicResult37 :=
  { Name := y.Name,
    ErrorCode := y.ErrorCode,
    ErrorMessage := y.ErrorMessage }

/-- An array of structures is nil. -/
def CreatePartitionsTopicResult37.Nulls (_version : Int16) (_y : CreatePartitionsTopicResult37) : Prop :=
  False

/-- `CreatePartitionsTopicResult37` in use again. -/
def CreatePartitionsTopicResult37.reuse : Reuse CreatePartitionsTopicResult37.type := { over := CreatePartitionsTopicResult37.over, Nulls := CreatePartitionsTopicResult37.Nulls }

/-- The same after the first `k` statements of `Decode`. -/
def CreatePartitionsTopicResult37.overAt (_version : Int16) (k : Nat) (y t0 : CreatePartitionsTopicResult37) : CreatePartitionsTopicResult37 :=
  { Name := upto k 0 (y.Name) t0.Name,
    ErrorCode := upto k 1 (y.ErrorCode) t0.ErrorCode,
    ErrorMessage := upto k 2 (y.ErrorMessage) t0.ErrorMessage }

theorem CreatePartitionsTopicResult37.sim (v : Int16) (t0 : CreatePartitionsTopicResult37) : Sim (CreatePartitionsTopicResult37.overAt v 0 · t0) (CreatePartitionsTopicResult37.overAt v 3 · t0) (CreatePartitionsTopicResult37.decode v) :=
  ((.field fun _ _ => rfl) : Sim (CreatePartitionsTopicResult37.overAt v 0 · t0) (CreatePartitionsTopicResult37.overAt v 1 · t0) _)
    |>.andThen ((.field fun _ _ => rfl) : Sim (CreatePartitionsTopicResult37.overAt v 1 · t0) (CreatePartitionsTopicResult37.overAt v 2 · t0) _)
    |>.andThen ((.field fun _ _ => rfl) : Sim (CreatePartitionsTopicResult37.overAt v 2 · t0) (CreatePartitionsTopicResult37.overAt v 3 · t0) _)
theorem CreatePartitionsTopicResult37.reusable : CreatePartitionsTopicResult37.reuse.Holds CreatePartitionsTopicResult37.layout where
  decode v t0 d := by
    have h := CreatePartitionsTopicResult37.sim v t0 {} d
    have e : CreatePartitionsTopicResult37.overAt v 0 {} t0 = t0 := by first | rfl | (simp only [CreatePartitionsTopicResult37.overAt, upto_zero, Option.none_or, ite_self] <;> rfl)
    simp only [e] at h
    exact h
  same v y t0 _h := (app_congr (app_congr rfl rfl) rfl)
  stale _ _ h := h.elim

/-- What `t0` becomes where a new `CreatePartitionsResponse` becomes `y`. -/
def CreatePartitionsResponse.over (_version : Int16) (y t0 : CreatePartitionsResponse) : CreatePartitionsResponse :=
  { ThrottleTimeMs := y.ThrottleTimeMs,
    Results := y.Results.or t0.Results }

/-- An array of structures is nil. -/
def CreatePartitionsResponse.Nulls (_version : Int16) (y : CreatePartitionsResponse) : Prop :=
  y.Results = none

/-- `CreatePartitionsResponse` in use again. -/
def CreatePartitionsResponse.reuse : Reuse CreatePartitionsResponse.type := { over := CreatePartitionsResponse.over, Nulls := CreatePartitionsResponse.Nulls }

/-- The same after the first `k` statements of `Decode`. -/
def CreatePartitionsResponse.overAt (_version : Int16) (k : Nat) (y t0 : CreatePartitionsResponse) : CreatePartitionsResponse :=
  { ThrottleTimeMs := upto k 0 (y.ThrottleTimeMs) t0.ThrottleTimeMs,
    Results := y.Results.or t0.Results }

theorem CreatePartitionsResponse.sim (v : Int16) (t0 : CreatePartitionsResponse) : Sim (CreatePartitionsResponse.overAt v 0 · t0) (CreatePartitionsResponse.overAt v 2 · t0) (CreatePartitionsResponse.decode v) :=
  ((.field fun _ _ => rfl) : Sim (CreatePartitionsResponse.overAt v 0 · t0) (CreatePartitionsResponse.overAt v 1 · t0) _)
    |>.andThen ((.structs (fun _ _ => rfl) fun _ => rfl) : Sim (CreatePartitionsResponse.overAt v 1 · t0) (CreatePartitionsResponse.overAt v 2 · t0) _)
theorem CreatePartitionsResponse.reusable : CreatePartitionsResponse.reuse.Holds CreatePartitionsResponse.layout where
  decode v t0 d := by
    have h := CreatePartitionsResponse.sim v t0 {} d
    have e : CreatePartitionsResponse.overAt v 0 {} t0 = t0 := by first | rfl | (simp only [CreatePartitionsResponse.overAt, upto_zero, Option.none_or, ite_self] <;> rfl)
    simp only [e] at h
    exact h
  same v y t0 h := (app_congr rfl (same_or fun hn => h (hn)))
  stale v y h := by
    obtain h := h
    · exact ⟨({ Results := some [{}] } : CreatePartitionsResponse), (app_ne_right rfl (stale_or h))⟩

/-- The structures of the CreatePartitions messages. -/
def reuseCreatePartitions : List (Σ (M : MsgType) (_ : Layout M), Reuse M) :=
  [⟨CreatePartitionsRequest.type, CreatePartitionsRequest.layout, CreatePartitionsRequest.reuse⟩,
   ⟨CreatePartitionsTopic37.type, CreatePartitionsTopic37.layout, CreatePartitionsTopic37.reuse⟩,
   ⟨CreatePartitionsAssignment37.type, CreatePartitionsAssignment37.layout, CreatePartitionsAssignment37.reuse⟩,
   ⟨CreatePartitionsResponse.type, CreatePartitionsResponse.layout, CreatePartitionsResponse.reuse⟩,
   ⟨CreatePartitionsTopicResult37.type, CreatePartitionsTopicResult37.layout, CreatePartitionsTopicResult37.reuse⟩]
theorem reuseCreatePartitions_holds : ∀ p ∈ reuseCreatePartitions, p.2.2.Holds p.2.1 := by
  unfold reuseCreatePartitions
  simp only [List.forall_mem_cons]
  exact ⟨CreatePartitionsRequest.reusable, CreatePartitionsTopic37.reusable, CreatePartitionsAssignment37.reusable, CreatePartitionsResponse.reusable, CreatePartitionsTopicResult37.reusable, fun _ h => absurd h (by simp)⟩

end Kafka.Msg
