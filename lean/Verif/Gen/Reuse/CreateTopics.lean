import Verif.Message.Reuse
import Verif.Gen.Spec.CreateTopics
/-!
Generated by tools/gen_messages.py: decoding into CreateTopics messages used before.
-/
set_option linter.unusedSimpArgs false
set_option linter.unusedVariables false
namespace Kafka.Msg

/-- What `t0` becomes where a new `CreatableReplicaAssignment19` becomes `y`. -/
def CreatableReplicaAssignment19.over (_version : Int16) (y _t0 : CreatableReplicaAssignment19) : CreatableReplicaAssignment19 :=
  { PartitionIndex := y.PartitionIndex,
    BrokerIds := y.BrokerIds }

/-- An array of structures is nil. -/
def CreatableReplicaAssignment19.Nulls (_version : Int16) (_y : CreatableReplicaAssignment19) : Prop :=
  False

/-- `CreatableReplicaAssignment19` in use again. -/
def CreatableReplicaAssignment19.reuse : Reuse CreatableReplicaAssignment19.type := { over := CreatableReplicaAssignment19.over, Nulls := CreatableReplicaAssignment19.Nulls }

/-- The same after the first `k` statements of `Decode`. -/
def CreatableReplicaAssignment19.overAt (_version : Int16) (k : Nat) (y t0 : CreatableReplicaAssignment19) : CreatableReplicaAssignment19 :=
  { PartitionIndex := upto k 0 (y.PartitionIndex) t0.PartitionIndex,
    BrokerIds := upto k 1 (y.BrokerIds) t0.BrokerIds }

theorem CreatableReplicaAssignment19.sim (v : Int16) (t0 : CreatableReplicaAssignment19) : Sim (CreatableReplicaAssignment19.overAt v 0 · t0) (CreatableReplicaAssignment19.overAt v 2 · t0) (CreatableReplicaAssignment19.decode v) :=
  ((.field fun _ _ => rfl) : Sim (CreatableReplicaAssignment19.overAt v 0 · t0) (CreatableReplicaAssignment19.overAt v 1 · t0) _)
    |>.andThen ((.field fun _ _ => rfl) : Sim (CreatableReplicaAssignment19.overAt v 1 · t0) (CreatableReplicaAssignment19.overAt v 2 · t0) _)
theorem CreatableReplicaAssignment19.reusable : CreatableReplicaAssignment19.reuse.Holds CreatableReplicaAssignment19.layout where
  decode v t0 d := by
    have h := CreatableReplicaAssignment19.sim v t0 {} d
    have e : CreatableReplicaAssignment19.overAt v 0 {} t0 = t0 := by first | rfl | (simp only [CreatableReplicaAssignment19.overAt, upto_zero, Option.none_or, ite_self] <;> rfl)
    simp only [e] at h
    exact h
  same v y t0 _h := (app_congr rfl rfl)
  stale _ _ h := h.elim

/-- What `t0` becomes where a new `CreateableTopicConfig19` becomes `y`. -/
def CreateableTopicConfig19.over (_version : Int16) (y _t0 : CreateableTopicConfig19) : CreateableTopicConfig19 :=
  { Name := y.Name,
    Value := y.Value }

/-- An array of structures is nil. -/
def CreateableTopicConfig19.Nulls (_version : Int16) (_y : CreateableTopicConfig19) : Prop :=
  False

/-- `CreateableTopicConfig19` in use again. -/
def CreateableTopicConfig19.reuse : Reuse CreateableTopicConfig19.type := { over := CreateableTopicConfig19.over, Nulls := CreateableTopicConfig19.Nulls }

/-- The same after the first `k` statements of `Decode`. -/
def CreateableTopicConfig19.overAt (_version : Int16) (k : Nat) (y t0 : CreateableTopicConfig19) : CreateableTopicConfig19 :=
  { Name := upto k 0 (y.Name) t0.Name,
    Value := upto k 1 (y.Value) t0.Value }

theorem CreateableTopicConfig19.sim (v : Int16) (t0 : CreateableTopicConfig19) : Sim (CreateableTopicConfig19.overAt v 0 · t0) (CreateableTopicConfig19.overAt v 2 · t0) (CreateableTopicConfig19.decode v) :=
  ((.field fun _ _ => rfl) : Sim (CreateableTopicConfig19.overAt v 0 · t0) (CreateableTopicConfig19.overAt v 1 · t0) _)
    |>.andThen ((.field fun _ _ => rfl) : Sim (CreateableTopicConfig19.overAt v 1 · t0) (CreateableTopicConfig19.overAt v 2 · t0) _)
theorem CreateableTopicConfig19.reusable : CreateableTopicConfig19.reuse.Holds CreateableTopicConfig19.layout where
  decode v t0 d := by
    have h := CreateableTopicConfig19.sim v t0 {} d
    have e : CreateableTopicConfig19.overAt v 0 {} t0 = t0 := by first | rfl | (simp only [CreateableTopicConfig19.overAt, upto_zero, Option.none_or, ite_self] <;> rfl)
    simp only [e] at h
    exact h
  same v y t0 _h := (app_congr rfl rfl)
  stale _ _ h := h.elim

/-- What `t0` becomes where a new `CreatableTopic19` becomes `y`. -/
def CreatableTopic19.over (_version : Int16) (y t0 : CreatableTopic19) : CreatableTopic19 :=
  { Name := y.Name,
    NumPartitions := y.NumPartitions,
    ReplicationFactor := y.ReplicationFactor,
    Assignments := y.Assignments.or t0.Assignments,
    Configs := y.Configs.or t0.Configs }

/-- An array of structures is nil. -/
def CreatableTopic19.Nulls (_version : Int16) (y : CreatableTopic19) : Prop :=
  y.Assignments = none ∨ y.Configs = none

/-- `CreatableTopic19` in use again. -/
def CreatableTopic19.reuse : Reuse CreatableTopic19.type := { over := CreatableTopic19.over, Nulls := CreatableTopic19.Nulls }

/-- The same after the first `k` statements of `Decode`. -/
def CreatableTopic19.overAt (_version : Int16) (k : Nat) (y t0 : CreatableTopic19) : CreatableTopic19 :=
  { Name := upto k 0 (y.Name) t0.Name,
    NumPartitions := upto k 1 (y.NumPartitions) t0.NumPartitions,
    ReplicationFactor := upto k 2 (y.ReplicationFactor) t0.ReplicationFactor,
    Assignments := y.Assignments.or t0.Assignments,
    Configs := y.Configs.or t0.Configs }

theorem CreatableTopic19.sim (v : Int16) (t0 : CreatableTopic19) : Sim (CreatableTopic19.overAt v 0 · t0) (CreatableTopic19.overAt v 5 · t0) (CreatableTopic19.decode v) :=
  ((.field fun _ _ => rfl) : Sim (CreatableTopic19.overAt v 0 · t0) (CreatableTopic19.overAt v 1 · t0) _)
    |>.andThen ((.field fun _ _ => rfl) : Sim (CreatableTopic19.overAt v 1 · t0) (CreatableTopic19.overAt v 2 · t0) _)
    |>.andThen ((.field fun _ _ => rfl) : Sim (CreatableTopic19.overAt v 2 · t0) (CreatableTopic19.overAt v 3 · t0) _)
    |>.andThen ((.structs (fun _ _ => rfl) fun _ => rfl) : Sim (CreatableTopic19.overAt v 3 · t0) (CreatableTopic19.overAt v 4 · t0) _)
    |>.andThen ((.structs (fun _ _ => rfl) fun _ => rfl) : Sim (CreatableTopic19.overAt v 4 · t0) (CreatableTopic19.overAt v 5 · t0) _)
theorem CreatableTopic19.reusable : CreatableTopic19.reuse.Holds CreatableTopic19.layout where
  decode v t0 d := by
    have h := CreatableTopic19.sim v t0 {} d
    have e : CreatableTopic19.overAt v 0 {} t0 = t0 := by first | rfl | (simp only [CreatableTopic19.overAt, upto_zero, Option.none_or, ite_self] <;> rfl)
    simp only [e] at h
    exact h
  same v y t0 h := (app_congr (app_congr (app_congr (app_congr rfl rfl) rfl) (same_or fun hn => h (Or.inl hn))) (same_or fun hn => h (Or.inr (hn))))
  stale v y h := by
    obtain h | h := h
    · exact ⟨({ Assignments := some [{}] } : CreatableTopic19), (app_ne_left (app_ne_right (app_congr (app_congr rfl rfl) rfl) (stale_or h)) none_or)⟩
    · exact ⟨({ Configs := some [{}] } : CreatableTopic19), (app_ne_right (app_congr (app_congr (app_congr rfl rfl) rfl) none_or) (stale_or h))⟩

/-- What `t0` becomes where a new `CreateTopicsRequest` becomes `y`. -/
def CreateTopicsRequest.over (version : Int16) (y t0 : CreateTopicsRequest) : CreateTopicsRequest :=
  { Topics := y.Topics.or t0.Topics,
    timeoutMs := y.timeoutMs,
    validateOnly := if version ≥ 1 then y.validateOnly else t0.validateOnly }

/-- An array of structures is nil. -/
def CreateTopicsRequest.Nulls (_version : Int16) (y : CreateTopicsRequest) : Prop :=
  y.Topics = none

/-- `CreateTopicsRequest` in use again. -/
def CreateTopicsRequest.reuse : Reuse CreateTopicsRequest.type := { over := CreateTopicsRequest.over, Nulls := CreateTopicsRequest.Nulls }

/-- The same after the first `k` statements of `Decode`. -/
def CreateTopicsRequest.overAt (version : Int16) (k : Nat) (y t0 : CreateTopicsRequest) : CreateTopicsRequest :=
  { Topics := y.Topics.or t0.Topics,
    timeoutMs := upto k 1 (y.timeoutMs) t0.timeoutMs,
    validateOnly := upto k 2 (if version ≥ 1 then y.validateOnly else t0.validateOnly) t0.validateOnly }

theorem CreateTopicsRequest.sim (v : Int16) (t0 : CreateTopicsRequest) : Sim (CreateTopicsRequest.overAt v 0 · t0) (CreateTopicsRequest.overAt v 3 · t0) (CreateTopicsRequest.decode v) :=
  ((.structs (fun _ _ => rfl) fun _ => rfl) : Sim (CreateTopicsRequest.overAt v 0 · t0) (CreateTopicsRequest.overAt v 1 · t0) _)
    |>.andThen ((.field fun _ _ => rfl) : Sim (CreateTopicsRequest.overAt v 1 · t0) (CreateTopicsRequest.overAt v 2 · t0) _)
    |>.andThen ((.onlyIf (fun hc => .field fun _ _ => by simp only [CreateTopicsRequest.overAt, if_pos hc]; rfl) fun hc _ => by simp only [CreateTopicsRequest.overAt, if_neg hc]; rfl) : Sim (CreateTopicsRequest.overAt v 2 · t0) (CreateTopicsRequest.overAt v 3 · t0) _)
theorem CreateTopicsRequest.reusable : CreateTopicsRequest.reuse.Holds CreateTopicsRequest.layout where
  decode v t0 d := by
    have h := CreateTopicsRequest.sim v t0 {} d
    have e : CreateTopicsRequest.overAt v 0 {} t0 = t0 := by first | rfl | (simp only [CreateTopicsRequest.overAt, upto_zero, Option.none_or, ite_self] <;> rfl)
    simp only [e] at h
    exact h
  same v y t0 h := (app_congr (app_congr (same_or fun hn => h (hn)) rfl) (again_opt Wire.bool y.validateOnly t0.validateOnly))
  stale v y h := by
    obtain h := h
    · exact ⟨({ Topics := some [{}] } : CreateTopicsRequest), (app_ne_left (app_ne_left (stale_or h) rfl) (again_opt Wire.bool y.validateOnly false))⟩

/-- What `t0` becomes where a new `CreatableTopicConfigs19` becomes `y`. -/
def CreatableTopicConfigs19.over (version : Int16) (y t0 : CreatableTopicConfigs19) : CreatableTopicConfigs19 :=
  { Name := if version ≥ 5 then y.Name else t0.Name,
    Value := if version ≥ 5 then y.Value else t0.Value,
    ReadOnly := if version ≥ 5 then y.ReadOnly else t0.ReadOnly,
    ConfigSource := if version ≥ 5 then y.ConfigSource else t0.ConfigSource,
    IsSensitive := if version ≥ 5 then y.IsSensitive else t0.IsSensitive }

/-- An array of structures is nil. -/
def CreatableTopicConfigs19.Nulls (_version : Int16) (_y : CreatableTopicConfigs19) : Prop :=
  False

/-- `CreatableTopicConfigs19` in use again. -/
def CreatableTopicConfigs19.reuse : Reuse CreatableTopicConfigs19.type := { over := CreatableTopicConfigs19.over, Nulls := CreatableTopicConfigs19.Nulls }

/-- The same after the first `k` statements of `Decode`. -/
def CreatableTopicConfigs19.overAt (version : Int16) (k : Nat) (y t0 : CreatableTopicConfigs19) : CreatableTopicConfigs19 :=
  { Name := upto k 0 (if version ≥ 5 then y.Name else t0.Name) t0.Name,
    Value := upto k 1 (if version ≥ 5 then y.Value else t0.Value) t0.Value,
    ReadOnly := upto k 2 (if version ≥ 5 then y.ReadOnly else t0.ReadOnly) t0.ReadOnly,
    ConfigSource := upto k 3 (if version ≥ 5 then y.ConfigSource else t0.ConfigSource) t0.ConfigSource,
    IsSensitive := upto k 4 (if version ≥ 5 then y.IsSensitive else t0.IsSensitive) t0.IsSensitive }

theorem CreatableTopicConfigs19.sim (v : Int16) (t0 : CreatableTopicConfigs19) : Sim (CreatableTopicConfigs19.overAt v 0 · t0) (CreatableTopicConfigs19.overAt v 5 · t0) (CreatableTopicConfigs19.decode v) :=
  ((.onlyIf (fun hc => .field fun _ _ => by simp only [CreatableTopicConfigs19.overAt, if_pos hc]; rfl) fun hc _ => by simp only [CreatableTopicConfigs19.overAt, if_neg hc]; rfl) : Sim (CreatableTopicConfigs19.overAt v 0 · t0) (CreatableTopicConfigs19.overAt v 1 · t0) _)
    |>.andThen ((.onlyIf (fun hc => .field fun _ _ => by simp only [CreatableTopicConfigs19.overAt, if_pos hc]; rfl) fun hc _ => by simp only [CreatableTopicConfigs19.overAt, if_neg hc]; rfl) : Sim (CreatableTopicConfigs19.overAt v 1 · t0) (CreatableTopicConfigs19.overAt v 2 · t0) _)
    |>.andThen ((.onlyIf (fun hc => .field fun _ _ => by simp only [CreatableTopicConfigs19.overAt, if_pos hc]; rfl) fun hc _ => by simp only [CreatableTopicConfigs19.overAt, if_neg hc]; rfl) : Sim (CreatableTopicConfigs19.overAt v 2 · t0) (CreatableTopicConfigs19.overAt v 3 · t0) _)
    |>.andThen ((.onlyIf (fun hc => .field fun _ _ => by simp only [CreatableTopicConfigs19.overAt, if_pos hc]; rfl) fun hc _ => by simp only [CreatableTopicConfigs19.overAt, if_neg hc]; rfl) : Sim (CreatableTopicConfigs19.overAt v 3 · t0) (CreatableTopicConfigs19.overAt v 4 · t0) _)
    |>.andThen ((.onlyIf (fun hc => .field fun _ _ => by simp only [CreatableTopicConfigs19.overAt, if_pos hc]; rfl) fun hc _ => by simp only [CreatableTopicConfigs19.overAt, if_neg hc]; rfl) : Sim (CreatableTopicConfigs19.overAt v 4 · t0) (CreatableTopicConfigs19.overAt v 5 · t0) _)
theorem CreatableTopicConfigs19.reusable : CreatableTopicConfigs19.reuse.Holds CreatableTopicConfigs19.layout where
  decode v t0 d := by
    have h := CreatableTopicConfigs19.sim v t0 {} d
    have e : CreatableTopicConfigs19.overAt v 0 {} t0 = t0 := by first | rfl | (simp only [CreatableTopicConfigs19.overAt, upto_zero, Option.none_or, ite_self] <;> rfl)
    simp only [e] at h
    exact h
  same v y t0 _h := (app_congr (app_congr (app_congr (app_congr (again_opt Wire.string y.Name t0.Name) (again_opt Wire.string y.Value t0.Value)) (again_opt Wire.bool y.ReadOnly t0.ReadOnly)) (again_opt Wire.int8 y.ConfigSource t0.ConfigSource)) (again_opt Wire.bool y.IsSensitive t0.IsSensitive))
  stale _ _ h := h.elim

/-- What `t0` becomes where a new `CreatableTopicResult19` becomes `y`. -/
def CreatableTopicResult19.over (version : Int16) (y t0 : CreatableTopicResult19) : CreatableTopicResult19 :=
  { Name := y.Name,
    ErrorCode := y.ErrorCode,
    ErrorMessage := if version ≥ 1 then y.ErrorMessage else t0.ErrorMessage,
    TopicConfigErrorCode := if version ≥ 5 then y.TopicConfigErrorCode else t0.TopicConfigErrorCode,
    NumPartitions := if version ≥ 5 then y.NumPartitions else t0.NumPartitions,
    ReplicationFactor := if version ≥ 5 then y.ReplicationFactor else t0.ReplicationFactor,
    Configs := if version ≥ 5 then y.Configs.or t0.Configs else t0.Configs }

/-- An array of structures is nil. -/
def CreatableTopicResult19.Nulls (version : Int16) (y : CreatableTopicResult19) : Prop :=
  (version ≥ 5) ∧ y.Configs = none

/-- `CreatableTopicResult19` in use again. -/
def CreatableTopicResult19.reuse : Reuse CreatableTopicResult19.type := { over := CreatableTopicResult19.over, Nulls := CreatableTopicResult19.Nulls }

/-- The same after the first `k` statements of `Decode`. -/
def CreatableTopicResult19.overAt (version : Int16) (k : Nat) (y t0 : CreatableTopicResult19) : CreatableTopicResult19 :=
  { Name := upto k 0 (y.Name) t0.Name,
    ErrorCode := upto k 1 (y.ErrorCode) t0.ErrorCode,
    ErrorMessage := upto k 2 (if version ≥ 1 then y.ErrorMessage else t0.ErrorMessage) t0.ErrorMessage,
    TopicConfigErrorCode := upto k 3 (if version ≥ 5 then y.TopicConfigErrorCode else t0.TopicConfigErrorCode) t0.TopicConfigErrorCode,
    NumPartitions := upto k 4 (if version ≥ 5 then y.NumPartitions else t0.NumPartitions) t0.NumPartitions,
    ReplicationFactor := upto k 5 (if version ≥ 5 then y.ReplicationFactor else t0.ReplicationFactor) t0.ReplicationFactor,
    Configs := if version ≥ 5 then y.Configs.or t0.Configs else t0.Configs }

theorem CreatableTopicResult19.sim (v : Int16) (t0 : CreatableTopicResult19) : Sim (CreatableTopicResult19.overAt v 0 · t0) (CreatableTopicResult19.overAt v 7 · t0) (CreatableTopicResult19.decode v) :=
  ((.field fun _ _ => rfl) : Sim (CreatableTopicResult19.overAt v 0 · t0) (CreatableTopicResult19.overAt v 1 · t0) _)
    |>.andThen ((.field fun _ _ => rfl) : Sim (CreatableTopicResult19.overAt v 1 · t0) (CreatableTopicResult19.overAt v 2 · t0) _)
    |>.andThen ((.onlyIf (fun hc => .field fun _ _ => by simp only [CreatableTopicResult19.overAt, if_pos hc]; rfl) fun hc _ => by simp only [CreatableTopicResult19.overAt, if_neg hc]; rfl) : Sim (CreatableTopicResult19.overAt v 2 · t0) (CreatableTopicResult19.overAt v 3 · t0) _)
    |>.andThen ((.onlyIf (fun hc => .field fun _ _ => by simp only [CreatableTopicResult19.overAt, if_pos hc]; rfl) fun hc _ => by simp only [CreatableTopicResult19.overAt, if_neg hc]; rfl) : Sim (CreatableTopicResult19.overAt v 3 · t0) (CreatableTopicResult19.overAt v 4 · t0) _)
    |>.andThen ((.onlyIf (fun hc => .field fun _ _ => by simp only [CreatableTopicResult19.overAt, if_pos hc]; rfl) fun hc _ => by simp only [CreatableTopicResult19.overAt, if_neg hc]; rfl) : Sim (CreatableTopicResult19.overAt v 4 · t0) (CreatableTopicResult19.overAt v 5 · t0) _)
    |>.andThen ((.onlyIf (fun hc => .field fun _ _ => by simp only [CreatableTopicResult19.overAt, if_pos hc]; rfl) fun hc _ => by simp only [CreatableTopicResult19.overAt, if_neg hc]; rfl) : Sim (CreatableTopicResult19.overAt v 5 · t0) (CreatableTopicResult19.overAt v 6 · t0) _)
    |>.andThen ((.onlyIf (fun hc => .structs (fun _ _ => by simp only [CreatableTopicResult19.overAt, if_pos hc]; rfl) fun _ => by simp only [CreatableTopicResult19.overAt, if_pos hc]; rfl) fun hc _ => by simp only [CreatableTopicResult19.overAt, if_neg hc]; rfl) : Sim (CreatableTopicResult19.overAt v 6 · t0) (CreatableTopicResult19.overAt v 7 · t0) _)
theorem CreatableTopicResult19.reusable : CreatableTopicResult19.reuse.Holds CreatableTopicResult19.layout where
  decode v t0 d := by
    have h := CreatableTopicResult19.sim v t0 {} d
    have e : CreatableTopicResult19.overAt v 0 {} t0 = t0 := by first | rfl | (simp only [CreatableTopicResult19.overAt, upto_zero, Option.none_or, ite_self] <;> rfl)
    simp only [e] at h
    exact h
  same v y t0 h := (app_congr (app_congr (app_congr (app_congr (app_congr (app_congr rfl rfl) (again_opt Wire.string y.ErrorMessage t0.ErrorMessage)) (again_opt Wire.int16 y.TopicConfigErrorCode t0.TopicConfigErrorCode)) (again_opt Wire.int32 y.NumPartitions t0.NumPartitions)) (again_opt Wire.int16 y.ReplicationFactor t0.ReplicationFactor)) (same_when fun hc hn => h (⟨hc, hn⟩)))
  stale v y h := by
    obtain ⟨hc, h⟩ := h
    · exact ⟨({ Configs := some [{}] } : CreatableTopicResult19), (app_ne_right (app_congr (app_congr (app_congr (app_congr (app_congr rfl rfl) (again_opt Wire.string y.ErrorMessage [])) (again_opt Wire.int16 y.TopicConfigErrorCode 0)) (again_opt Wire.int32 y.NumPartitions 0)) (again_opt Wire.int16 y.ReplicationFactor 0)) (stale_when hc h))⟩

/-- What `t0` becomes where a new `CreateTopicsResponse` becomes `y`. -/
def CreateTopicsResponse.over (version : Int16) (y t0 : CreateTopicsResponse) : CreateTopicsResponse :=
  { ThrottleTimeMs := if version ≥ 2 then y.ThrottleTimeMs else t0.ThrottleTimeMs,
    Topics := y.Topics.or t0.Topics }

/-- An array of structures is nil. -/
def CreateTopicsResponse.Nulls (_version : Int16) (y : CreateTopicsResponse) : Prop :=
  y.Topics = none

/-- `CreateTopicsResponse` in use again. -/
def CreateTopicsResponse.reuse : Reuse CreateTopicsResponse.type := { over := CreateTopicsResponse.over, Nulls := CreateTopicsResponse.Nulls }

/-- The same after the first `k` statements of `Decode`. -/
def CreateTopicsResponse.overAt (version : Int16) (k : Nat) (y t0 : CreateTopicsResponse) : CreateTopicsResponse :=
  { ThrottleTimeMs := upto k 0 (if version ≥ 2 then y.ThrottleTimeMs else t0.ThrottleTimeMs) t0.ThrottleTimeMs,
    Topics := y.Topics.or t0.Topics }

theorem CreateTopicsResponse.sim (v : Int16) (t0 : CreateTopicsResponse) : Sim (CreateTopicsResponse.overAt v 0 · t0) (CreateTopicsResponse.overAt v 2 · t0) (CreateTopicsResponse.decode v) :=
  ((.onlyIf (fun hc => .field fun _ _ => by simp only [CreateTopicsResponse.overAt, if_pos hc]; rfl) fun hc _ => by simp only [CreateTopicsResponse.overAt, if_neg hc]; rfl) : Sim (CreateTopicsResponse.overAt v 0 · t0) (CreateTopicsResponse.overAt v 1 · t0) _)
    |>.andThen ((.structs (fun _ _ => rfl) fun _ => rfl) : Sim (CreateTopicsResponse.overAt v 1 · t0) (CreateTopicsResponse.overAt v 2 · t0) _)
theorem CreateTopicsResponse.reusable : CreateTopicsResponse.reuse.Holds CreateTopicsResponse.layout where
  decode v t0 d := by
    have h := CreateTopicsResponse.sim v t0 {} d
    have e : CreateTopicsResponse.overAt v 0 {} t0 = t0 := by first | rfl | (simp only [CreateTopicsResponse.overAt, upto_zero, Option.none_or, ite_self] <;> rfl)
    simp only [e] at h
    exact h
  same v y t0 h := (app_congr (again_opt Wire.int32 y.ThrottleTimeMs t0.ThrottleTimeMs) (same_or fun hn => h (hn)))
  stale v y h := by
    obtain h := h
    · exact ⟨({ Topics := some [{}] } : CreateTopicsResponse), (app_ne_right (again_opt Wire.int32 y.ThrottleTimeMs 0) (stale_or h))⟩

/-- The structures of the CreateTopics messages. -/
def reuseCreateTopics : List (Σ (M : MsgType) (_ : Layout M), Reuse M) :=
  [⟨CreateTopicsRequest.type, CreateTopicsRequest.layout, CreateTopicsRequest.reuse⟩,
   ⟨CreatableTopic19.type, CreatableTopic19.layout, CreatableTopic19.reuse⟩,
   ⟨CreatableReplicaAssignment19.type, CreatableReplicaAssignment19.layout, CreatableReplicaAssignment19.reuse⟩,
   ⟨CreateableTopicConfig19.type, CreateableTopicConfig19.layout, CreateableTopicConfig19.reuse⟩,
   ⟨CreateTopicsResponse.type, CreateTopicsResponse.layout, CreateTopicsResponse.reuse⟩,
   ⟨CreatableTopicResult19.type, CreatableTopicResult19.layout, CreatableTopicResult19.reuse⟩,
   ⟨CreatableTopicConfigs19.type, CreatableTopicConfigs19.layout, CreatableTopicConfigs19.reuse⟩]
theorem reuseCreateTopics_holds : ∀ p ∈ reuseCreateTopics, p.2.2.Holds p.2.1 := by
  unfold reuseCreateTopics
  simp only [List.forall_mem_cons]
  exact ⟨CreateTopicsRequest.reusable, CreatableTopic19.reusable, CreatableReplicaAssignment19.reusable, CreateableTopicConfig19.reusable, CreateTopicsResponse.reusable, CreatableTopicResult19.reusable, CreatableTopicConfigs19.reusable, fun _ h => absurd h (by simp)⟩

end Kafka.Msg
