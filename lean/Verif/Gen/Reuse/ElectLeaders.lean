import Verif.Message.Reuse
import Verif.Gen.Spec.ElectLeaders
/-!
Generated by tools/gen_messages.py: decoding into ElectLeaders messages used before.
-/
set_option linter.unusedSimpArgs false
set_option linter.unusedVariables false
namespace Kafka.Msg

/-- What `t0` becomes where a new `TopicPartitions43` becomes `y`. -/
def TopicPartitions43.over (_version : Int16) (y _t0 : TopicPartitions43) : TopicPartitions43 :=
  { Topic := y.Topic,
    PartitionId := y.PartitionId }

/-- An array of structures is nil. -/
def TopicPartitions43.Nulls (_version : Int16) (_y : TopicPartitions43) : Prop :=
  False

/-- `TopicPartitions43` in use again. -/
def TopicPartitions43.reuse : Reuse TopicPartitions43.type := { over := TopicPartitions43.over, Nulls := TopicPartitions43.Nulls }

/-- The same after the first `k` statements of `Decode`. -/
def TopicPartitions43.overAt (_version : Int16) (k : Nat) (y t0 : TopicPartitions43) : TopicPartitions43 :=
  { Topic := upto k 0 (y.Topic) t0.Topic,
    PartitionId := upto k 1 (y.PartitionId) t0.PartitionId }

theorem TopicPartitions43.sim (v : Int16) (t0 : TopicPartitions43) : Sim (TopicPartitions43.overAt v 0 · t0) (TopicPartitions43.overAt v 2 · t0) (TopicPartitions43.decode v) :=
  ((.field fun _ _ => rfl) : Sim (TopicPartitions43.overAt v 0 · t0) (TopicPartitions43.overAt v 1 · t0) _)
    |>.andThen ((.field fun _ _ => rfl) : Sim (TopicPartitions43.overAt v 1 · t0) (TopicPartitions43.overAt v 2 · t0) _)
theorem TopicPartitions43.reusable : TopicPartitions43.reuse.Holds TopicPartitions43.layout where
  decode v t0 d := by
    have h := TopicPartitions43.sim v t0 {} d
    have e : TopicPartitions43.overAt v 0 {} t0 = t0 := by first | rfl | (simp only [TopicPartitions43.overAt, upto_zero, Option.none_or, ite_self] <;> rfl)
    simp only [e] at h
    exact h
  same v y t0 _h := (app_congr rfl rfl)
  stale _ _ h := h.elim

/-- What `t0` becomes where a new `ElectLeadersRequest` becomes `y`. -/
def ElectLeadersRequest.over (version : Int16) (y t0 : ElectLeadersRequest) : ElectLeadersRequest :=
  { ElectionType := if version ≥ 1 then y.ElectionType else t0.ElectionType,
    TopicPartitions := y.TopicPartitions.or t0.TopicPartitions,
    TimeoutMs := y.TimeoutMs }

/-- An array of structures is nil. -/
def ElectLeadersRequest.Nulls (_version : Int16) (y : ElectLeadersRequest) : Prop :=
  y.TopicPartitions = none

/-- `ElectLeadersRequest` in use again. -/
def ElectLeadersRequest.reuse : Reuse ElectLeadersRequest.type := { over := ElectLeadersRequest.over, Nulls := ElectLeadersRequest.Nulls }

/-- The same after the first `k` statements of `Decode`. -/
def ElectLeadersRequest.overAt (version : Int16) (k : Nat) (y t0 : ElectLeadersRequest) : ElectLeadersRequest :=
  { ElectionType := upto k 0 (if version ≥ 1 then y.ElectionType else t0.ElectionType) t0.ElectionType,
    TopicPartitions := y.TopicPartitions.or t0.TopicPartitions,
    TimeoutMs := upto k 2 (y.TimeoutMs) t0.TimeoutMs }

theorem ElectLeadersRequest.sim (v : Int16) (t0 : ElectLeadersRequest) : Sim (ElectLeadersRequest.overAt v 0 · t0) (ElectLeadersRequest.overAt v 3 · t0) (ElectLeadersRequest.decode v) :=
  ((.onlyIf (fun hc => .field fun _ _ => by simp only [ElectLeadersRequest.overAt, if_pos hc]; rfl) fun hc _ => by simp only [ElectLeadersRequest.overAt, if_neg hc]; rfl) : Sim (ElectLeadersRequest.overAt v 0 · t0) (ElectLeadersRequest.overAt v 1 · t0) _)
    |>.andThen ((.structs (fun _ _ => rfl) fun _ => rfl) : Sim (ElectLeadersRequest.overAt v 1 · t0) (ElectLeadersRequest.overAt v 2 · t0) _)
    |>.andThen ((.field fun _ _ => rfl) : Sim (ElectLeadersRequest.overAt v 2 · t0) (ElectLeadersRequest.overAt v 3 · t0) _)
theorem ElectLeadersRequest.reusable : ElectLeadersRequest.reuse.Holds ElectLeadersRequest.layout where
  decode v t0 d := by
    have h := ElectLeadersRequest.sim v t0 {} d
    have e : ElectLeadersRequest.overAt v 0 {} t0 = t0 := by first | rfl | (simp only [ElectLeadersRequest.overAt, upto_zero, Option.none_or, ite_self] <;> rfl)
    simp only [e] at h
    exact h
  same v y t0 h := (app_congr (app_congr (again_opt Wire.int8 y.ElectionType t0.ElectionType) (same_or fun hn => h (hn))) rfl)
  stale v y h := by
    obtain h := h
    · exact ⟨({ TopicPartitions := some [{}] } : ElectLeadersRequest), (app_ne_left (app_ne_right (again_opt Wire.int8 y.ElectionType 0) (stale_or h)) rfl)⟩

/-- What `t0` becomes where a new `PartitionResult43` becomes `y`. -/
def PartitionResult43.over (_version : Int16) (y _t0 : PartitionResult43) : PartitionResult43 :=
  { PartitionId := y.PartitionId,
    ErrorCode := y.ErrorCode,
    ErrorMessage := y.ErrorMessage }

/-- An array of structures is nil. -/
def PartitionResult43.Nulls (_version : Int16) (_y : PartitionResult43) : Prop :=
  False

/-- `PartitionResult43` in use again. -/
def PartitionResult43.reuse : Reuse PartitionResult43.type := { over := PartitionResult43.over, Nulls := PartitionResult43.Nulls }

/-- The same after the first `k` statements of `Decode`. -/
def PartitionResult43.overAt (_version : Int16) (k : Nat) (y t0 : PartitionResult43) : PartitionResult43 :=
  { PartitionId := upto k 0 (y.PartitionId) t0.PartitionId,
    ErrorCode := upto k 1 (y.ErrorCode) t0.ErrorCode,
    ErrorMessage := upto k 2 (y.ErrorMessage) t0.ErrorMessage }

theorem PartitionResult43.sim (v : Int16) (t0 : PartitionResult43) : Sim (PartitionResult43.overAt v 0 · t0) (PartitionResult43.overAt v 3 · t0) (PartitionResult43.decode v) :=
  ((.field fun _ _ => rfl) : Sim (PartitionResult43.overAt v 0 · t0) (PartitionResult43.overAt v 1 · t0) _)
    |>.andThen ((.field fun _ _ => rfl) : Sim (PartitionResult43.overAt v 1 · t0) (PartitionResult43.overAt v 2 · t0) _)
    |>.andThen ((.field fun _ _ => rfl) : Sim (PartitionResult43.overAt v 2 · t0) (PartitionResult43.overAt v 3 · t0) _)
theorem PartitionResult43.reusable : PartitionResult43.reuse.Holds PartitionResult43.layout where
  decode v t0 d := by
    have h := PartitionResult43.sim v t0 {} d
    have e : PartitionResult43.overAt v 0 {} t0 = t0 := by first | rfl | (simp only [PartitionResult43.overAt, upto_zero, Option.none_or, ite_self] <;> rfl)
    simp only [e] at h
    exact h
  same v y t0 _h := (app_congr (app_congr rfl rfl) rfl)
  stale _ _ h := h.elim

/-- What `t0` becomes where a new `ReplicaElectionResult43` becomes `y`. -/
def ReplicaElectionResult43.over (_version : Int16) (y t0 : ReplicaElectionResult43) : ReplicaElectionResult43 :=
  { Topic := y.Topic,
    PartitionResult := y.PartitionResult.or t0.PartitionResult }

/-- An array of structures is nil. -/
def ReplicaElectionResult43.Nulls (_version : Int16) (y : ReplicaElectionResult43) : Prop :=
  y.PartitionResult = none

/-- `ReplicaElectionResult43` in use again. -/
def ReplicaElectionResult43.reuse : Reuse ReplicaElectionResult43.type := { over := ReplicaElectionResult43.over, Nulls := ReplicaElectionResult43.Nulls }

/-- The same after the first `k` statements of `Decode`. -/
def ReplicaElectionResult43.overAt (_version : Int16) (k : Nat) (y t0 : ReplicaElectionResult43) : ReplicaElectionResult43 :=
  { Topic := upto k 0 (y.Topic) t0.Topic,
    PartitionResult := y.PartitionResult.or t0.PartitionResult }

theorem ReplicaElectionResult43.sim (v : Int16) (t0 : ReplicaElectionResult43) : Sim (ReplicaElectionResult43.overAt v 0 · t0) (ReplicaElectionResult43.overAt v 2 · t0) (ReplicaElectionResult43.decode v) :=
  ((.field fun _ _ => rfl) : Sim (ReplicaElectionResult43.overAt v 0 · t0) (ReplicaElectionResult43.overAt v 1 · t0) _)
    |>.andThen ((.structs (fun _ _ => rfl) fun _ => rfl) : Sim (ReplicaElectionResult43.overAt v 1 · t0) (ReplicaElectionResult43.overAt v 2 · t0) _)
theorem ReplicaElectionResult43.reusable : ReplicaElectionResult43.reuse.Holds ReplicaElectionResult43.layout where
  decode v t0 d := by
    have h := ReplicaElectionResult43.sim v t0 {} d
    have e : ReplicaElectionResult43.overAt v 0 {} t0 = t0 := by first | rfl | (simp only [ReplicaElectionResult43.overAt, upto_zero, Option.none_or, ite_self] <;> rfl)
    simp only [e] at h
    exact h
  same v y t0 h := (app_congr rfl (same_or fun hn => h (hn)))
  stale v y h := by
    obtain h := h
    · exact ⟨({ PartitionResult := some [{}] } : ReplicaElectionResult43), (app_ne_right rfl (stale_or h))⟩

/-- What `t0` becomes where a new `ElectLeadersResponse` becomes `y`. -/
def ElectLeadersResponse.over (version : Int16) (y t0 : ElectLeadersResponse) : ElectLeadersResponse :=
  { ThrottleTimeMs := y.ThrottleTimeMs,
    ErrorCode := if version ≥ 1 then y.ErrorCode else t0.ErrorCode,
    ReplicaElectionResults := y.ReplicaElectionResults.or t0.ReplicaElectionResults }

/-- An array of structures is nil. -/
def ElectLeadersResponse.Nulls (_version : Int16) (y : ElectLeadersResponse) : Prop :=
  y.ReplicaElectionResults = none

/-- `ElectLeadersResponse` in use again. -/
def ElectLeadersResponse.reuse : Reuse ElectLeadersResponse.type := { over := ElectLeadersResponse.over, Nulls := ElectLeadersResponse.Nulls }

/-- The same after the first `k` statements of `Decode`. -/
def ElectLeadersResponse.overAt (version : Int16) (k : Nat) (y t0 : ElectLeadersResponse) : ElectLeadersResponse :=
  { ThrottleTimeMs := upto k 0 (y.ThrottleTimeMs) t0.ThrottleTimeMs,
    ErrorCode := upto k 1 (if version ≥ 1 then y.ErrorCode else t0.ErrorCode) t0.ErrorCode,
    ReplicaElectionResults := y.ReplicaElectionResults.or t0.ReplicaElectionResults }

theorem ElectLeadersResponse.sim (v : Int16) (t0 : ElectLeadersResponse) : Sim (ElectLeadersResponse.overAt v 0 · t0) (ElectLeadersResponse.overAt v 3 · t0) (ElectLeadersResponse.decode v) :=
  ((.field fun _ _ => rfl) : Sim (ElectLeadersResponse.overAt v 0 · t0) (ElectLeadersResponse.overAt v 1 · t0) _)
    |>.andThen ((.onlyIf (fun hc => .field fun _ _ => by simp only [ElectLeadersResponse.overAt, if_pos hc]; rfl) fun hc _ => by simp only [ElectLeadersResponse.overAt, if_neg hc]; rfl) : Sim (ElectLeadersResponse.overAt v 1 · t0) (ElectLeadersResponse.overAt v 2 · t0) _)
    |>.andThen ((.structs (fun _ _ => rfl) fun _ => rfl) : Sim (ElectLeadersResponse.overAt v 2 · t0) (ElectLeadersResponse.overAt v 3 · t0) _)
theorem ElectLeadersResponse.reusable : ElectLeadersResponse.reuse.Holds ElectLeadersResponse.layout where
  decode v t0 d := by
    have h := ElectLeadersResponse.sim v t0 {} d
    have e : ElectLeadersResponse.overAt v 0 {} t0 = t0 := by first | rfl | (simp only [ElectLeadersResponse.overAt, upto_zero, Option.none_or, ite_self] <;> rfl)
    simp only [e] at h
    exact h
  same v y t0 h := (app_congr (app_congr rfl (again_opt Wire.int16 y.ErrorCode t0.ErrorCode)) (same_or fun hn => h (hn)))
  stale v y h := by
    obtain h := h
    · exact ⟨({ ReplicaElectionResults := some [{}] } : ElectLeadersResponse), (app_ne_right (app_congr rfl (again_opt Wire.int16 y.ErrorCode 0)) (stale_or h))⟩

/-- The structures of the ElectLeaders messages. -/
def reuseElectLeaders : List (Σ (M : MsgType) (_ : Layout M), Reuse M) :=
  [⟨ElectLeadersRequest.type, ElectLeadersRequest.layout, ElectLeadersRequest.reuse⟩,
   ⟨TopicPartitions43.type, TopicPartitions43.layout, TopicPartitions43.reuse⟩,
   ⟨ElectLeadersResponse.type, ElectLeadersResponse.layout, ElectLeadersResponse.reuse⟩,
   ⟨ReplicaElectionResult43.type, ReplicaElectionResult43.layout, ReplicaElectionResult43.reuse⟩,
   ⟨PartitionResult43.type, PartitionResult43.layout, PartitionResult43.reuse⟩]
theorem reuseElectLeaders_holds : ∀ p ∈ reuseElectLeaders, p.2.2.Holds p.2.1 := by
  unfold reuseElectLeaders
  simp only [List.forall_mem_cons]
  exact ⟨ElectLeadersRequest.reusable, TopicPartitions43.reusable, ElectLeadersResponse.reusable, ReplicaElectionResult43.reusable, PartitionResult43.reusable, fun _ h => absurd h (by simp)⟩

end Kafka.Msg
