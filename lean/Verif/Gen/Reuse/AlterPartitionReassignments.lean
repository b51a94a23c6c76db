import Verif.Message.Reuse
import Verif.Gen.Spec.AlterPartitionReassignments
/-!
Generated by tools/gen_messages.py: decoding into AlterPartitionReassignments messages used before.
-/
set_option linter.unusedSimpArgs false
set_option linter.unusedVariables false
namespace Kafka.Msg

/-- What `t0` becomes where a new `ReassignablePartition45` becomes `y`. -/
def ReassignablePartition45.over (_version : Int16) (y _t0 : ReassignablePartition45) : ReassignablePartition45 :=
  { PartitionIndex := y.PartitionIndex,
    Replicas := y.Replicas }

/-- An array of structures is nil. -/
def ReassignablePartition45.Nulls (_version : Int16) (_y : ReassignablePartition45) : Prop :=
  False

/-- `ReassignablePartition45` in use again. -/
def ReassignablePartition45.reuse : Reuse ReassignablePartition45.type := { over := ReassignablePartition45.over, Nulls := ReassignablePartition45.Nulls }

/-- The same after the first `k` statements of `Decode`. -/
def ReassignablePartition45.overAt (_version : Int16) (k : Nat) (y t0 : ReassignablePartition45) : ReassignablePartition45 :=
  { PartitionIndex := upto k 0 (y.PartitionIndex) t0.PartitionIndex,
    Replicas := upto k 1 (y.Replicas) t0.Replicas }

theorem ReassignablePartition45.sim (v : Int16) (t0 : ReassignablePartition45) : Sim (ReassignablePartition45.overAt v 0 · t0) (ReassignablePartition45.overAt v 2 · t0) (ReassignablePartition45.decode v) :=
  ((.field fun _ _ => rfl) : Sim (ReassignablePartition45.overAt v 0 · t0) (ReassignablePartition45.overAt v 1 · t0) _)
    |>.andThen ((.field fun _ _ => rfl) : Sim (ReassignablePartition45.overAt v 1 · t0) (ReassignablePartition45.overAt v 2 · t0) _)
theorem ReassignablePartition45.reusable : ReassignablePartition45.reuse.Holds ReassignablePartition45.layout where
  decode v t0 d := by
    have h := ReassignablePartition45.sim v t0 {} d
    have e : ReassignablePartition45.overAt v 0 {} t0 = t0 := by first | rfl | (simp only [ReassignablePartition45.overAt, upto_zero, Option.none_or, ite_self] <;> rfl)
    simp only [e] at h
    exact h
  same v y t0 _h := (app_congr rfl rfl)
  stale _ _ h := h.elim

/-- What `t0` becomes where a new `ReassignableTopic45` becomes `y`. -/
def ReassignableTopic45.over (_version : Int16) (y t0 : ReassignableTopic45) : ReassignableTopic45 :=
  { Name := y.Name,
    Partitions := y.Partitions.or t0.Partitions }

/-- An array of structures is nil. -/
def ReassignableTopic45.Nulls (_version : Int16) (y : ReassignableTopic45) : Prop :=
  y.Partitions = none

/-- `ReassignableTopic45` in use again. -/
def ReassignableTopic45.reuse : Reuse ReassignableTopic45.type := { over := ReassignableTopic45.over, Nulls := ReassignableTopic45.Nulls }

/-- The same after the first `k` statements of `Decode`. -/
def ReassignableTopic45.overAt (_version : Int16) (k : Nat) (y t0 : ReassignableTopic45) : ReassignableTopic45 :=
  { Name := upto k 0 (y.Name) t0.Name,
    Partitions := y.Partitions.or t0.Partitions }

theorem ReassignableTopic45.sim (v : Int16) (t0 : ReassignableTopic45) : Sim (ReassignableTopic45.overAt v 0 · t0) (ReassignableTopic45.overAt v 2 · t0) (ReassignableTopic45.decode v) :=
  ((.field fun _ _ => rfl) : Sim (ReassignableTopic45.overAt v 0 · t0) (ReassignableTopic45.overAt v 1 · t0) _)
    |>.andThen ((.structs (fun _ _ => rfl) fun _ => rfl) : Sim (ReassignableTopic45.overAt v 1 · t0) (ReassignableTopic45.overAt v 2 · t0) _)
theorem ReassignableTopic45.reusable : ReassignableTopic45.reuse.Holds ReassignableTopic45.layout where
  decode v t0 d := by
    have h := ReassignableTopic45.sim v t0 {} d
    have e : ReassignableTopic45.overAt v 0 {} t0 = t0 := by first | rfl | (simp only [ReassignableTopic45.overAt, upto_zero, Option.none_or, ite_self] <;> rfl)
    simp only [e] at h
    exact h
  same v y t0 h := (app_congr rfl (same_or fun hn => h (hn)))
  stale v y h := by
    obtain h := h
    · exact ⟨({ Partitions := some [{}] } : ReassignableTopic45), (app_ne_right rfl (stale_or h))⟩

/-- What `t0` becomes where a new `AlterPartitionReassignmentsRequest` becomes `y`. -/
def AlterPartitionReassignmentsRequest.over (_version : Int16) (y t0 : AlterPartitionReassignmentsRequest) : AlterPartitionReassignmentsRequest :=
  { TimeoutMs := y.TimeoutMs,
    Topics := y.Topics.or t0.Topics }

/-- An array of structures is nil. -/
def AlterPartitionReassignmentsRequest.Nulls (_version : Int16) (y : AlterPartitionReassignmentsRequest) : Prop :=
  y.Topics = none

/-- `AlterPartitionReassignmentsRequest` in use again. -/
def AlterPartitionReassignmentsRequest.reuse : Reuse AlterPartitionReassignmentsRequest.type := { over := AlterPartitionReassignmentsRequest.over, Nulls := AlterPartitionReassignmentsRequest.Nulls }

/-- The same after the first `k` statements of `Decode`. -/
def AlterPartitionReassignmentsRequest.overAt (_version : Int16) (k : Nat) (y t0 : AlterPartitionReassignmentsRequest) : AlterPartitionReassignmentsRequest :=
  { TimeoutMs := upto k 0 (y.TimeoutMs) t0.TimeoutMs,
    Topics := y.Topics.or t0.Topics }

theorem AlterPartitionReassignmentsRequest.sim (v : Int16) (t0 : AlterPartitionReassignmentsRequest) : Sim (AlterPartitionReassignmentsRequest.overAt v 0 · t0) (AlterPartitionReassignmentsRequest.overAt v 2 · t0) (AlterPartitionReassignmentsRequest.decode v) :=
  ((.field fun _ _ => rfl) : Sim (AlterPartitionReassignmentsRequest.overAt v 0 · t0) (AlterPartitionReassignmentsRequest.overAt v 1 · t0) _)
    |>.andThen ((.structs (fun _ _ => rfl) fun _ => rfl) : Sim (AlterPartitionReassignmentsRequest.overAt v 1 · t0) (AlterPartitionReassignmentsRequest.overAt v 2 · t0) _)
theorem AlterPartitionReassignmentsRequest.reusable : AlterPartitionReassignmentsRequest.reuse.Holds AlterPartitionReassignmentsRequest.layout where
  decode v t0 d := by
    have h := AlterPartitionReassignmentsRequest.sim v t0 {} d
    have e : AlterPartitionReassignmentsRequest.overAt v 0 {} t0 = t0 := by first | rfl | (simp only [AlterPartitionReassignmentsRequest.overAt, upto_zero, Option.none_or, ite_self] <;> rfl)
    simp only [e] at h
    exact h
  same v y t0 h := (app_congr rfl (same_or fun hn => h (hn)))
  stale v y h := by
    obtain h := h
    · exact ⟨({ Topics := some [{}] } : AlterPartitionReassignmentsRequest), (app_ne_right rfl (stale_or h))⟩

/-- What `t0` becomes where a new `ReassignablePartitionResponse45` becomes `y`. -/
def ReassignablePartitionResponse45.over (_version : Int16) (y _t0 : ReassignablePartitionResponse45) : ReassignablePartitionResponse45 :=
  { PartitionIndex := y.PartitionIndex,
    ErrorCode := y.ErrorCode,
    ErrorMessage := y.ErrorMessage }

/-- An array of structures is nil. -/
def ReassignablePartitionResponse45.Nulls (_version : Int16) (_y : ReassignablePartitionResponse45) : Prop :=
  False

/-- `ReassignablePartitionResponse45` in use again. -/
def ReassignablePartitionResponse45.reuse : Reuse ReassignablePartitionResponse45.type := { over := ReassignablePartitionResponse45.over, Nulls := ReassignablePartitionResponse45.Nulls }

/-- The same after the first `k` statements of `Decode`. -/
def ReassignablePartitionResponse45.overAt (_version : Int16) (k : Nat) (y t0 : ReassignablePartitionResponse45) : ReassignablePartitionResponse45 :=
  { PartitionIndex := upto k 0 (y.PartitionIndex) t0.PartitionIndex,
    ErrorCode := upto k 1 (y.ErrorCode) t0.ErrorCode,
    ErrorMessage := upto k 2 (y.ErrorMessage) t0.ErrorMessage }

theorem ReassignablePartitionResponse45.sim (v : Int16) (t0 : ReassignablePartitionResponse45) : Sim (ReassignablePartitionResponse45.overAt v 0 · t0) (ReassignablePartitionResponse45.overAt v 3 · t0) (ReassignablePartitionResponse45.decode v) :=
  ((.field fun _ _ => rfl) : Sim (ReassignablePartitionResponse45.overAt v 0 · t0) (ReassignablePartitionResponse45.overAt v 1 · t0) _)
    |>.andThen ((.field fun _ _ => rfl) : Sim (ReassignablePartitionResponse45.overAt v 1 · t0) (ReassignablePartitionResponse45.overAt v 2 · t0) _)
    |>.andThen ((.field fun _ _ => rfl) : Sim (ReassignablePartitionResponse45.overAt v 2 · t0) (ReassignablePartitionResponse45.overAt v 3 · t0) _)
theorem ReassignablePartitionResponse45.reusable : ReassignablePartitionResponse45.reuse.Holds ReassignablePartitionResponse45.layout where
  decode v t0 d := by
    have h := ReassignablePartitionResponse45.sim v t0 {} d
    have e : ReassignablePartitionResponse45.overAt v 0 {} t0 = t0 := by first | rfl | (simp only [ReassignablePartitionResponse45.overAt, upto_zero, Option.none_or, ite_self] <;> rfl)
    simp only [e] at h
    exact h
  same v y t0 _h := (app_congr (app_congr rfl rfl) rfl)
  stale _ _ h := h.elim

/-- What `t0` becomes where a new `ReassignableTopicResponse45` becomes `y`. -/
def ReassignableTopicResponse45.over (_version : Int16) (y t0 : ReassignableTopicResponse45) : ReassignableTopicResponse45 :=
  { Name := y.Name,
    Partitions := y.Partitions.or t0.Partitions }

/-- An array of structures is nil. -/
def ReassignableTopicResponse45.Nulls (_version : Int16) (y : ReassignableTopicResponse45) : Prop :=
  y.Partitions = none

/-- `ReassignableTopicResponse45` in use again. -/
def ReassignableTopicResponse45.reuse : Reuse ReassignableTopicResponse45.type := { over := ReassignableTopicResponse45.over, Nulls := ReassignableTopicResponse45.Nulls }

/-- The same after the first `k` statements of `Decode`. -/
def ReassignableTopicResponse45.overAt (_version : Int16) (k : Nat) (y t0 : ReassignableTopicResponse45) : ReassignableTopicResponse45 :=
  { Name := upto k 0 (y.Name) t0.Name,
    Partitions := y.Partitions.or t0.Partitions }

theorem ReassignableTopicResponse45.sim (v : Int16) (t0 : ReassignableTopicResponse45) : Sim (ReassignableTopicResponse45.overAt v 0 · t0) (ReassignableTopicResponse45.overAt v 2 · t0) (ReassignableTopicResponse45.decode v) :=
  ((.field fun _ _ => rfl) : Sim (ReassignableTopicResponse45.overAt v 0 · t0) (ReassignableTopicResponse45.overAt v 1 · t0) _)
    |>.andThen ((.structs (fun _ _ => rfl) fun _ => rfl) : Sim (ReassignableTopicResponse45.overAt v 1 · t0) (ReassignableTopicResponse45.overAt v 2 · t0) _)
theorem ReassignableTopicResponse45.reusable : ReassignableTopicResponse45.reuse.Holds ReassignableTopicResponse45.layout where
  decode v t0 d := by
    have h := ReassignableTopicResponse45.sim v t0 {} d
    have e : ReassignableTopicResponse45.overAt v 0 {} t0 = t0 := by first | rfl | (simp only [ReassignableTopicResponse45.overAt, upto_zero, Option.none_or, ite_self] <;> rfl)
    simp only [e] at h
    exact h
  same v y t0 h := (app_congr rfl (same_or fun hn => h (hn)))
  stale v y h := by
    obtain h := h
    · exact ⟨({ Partitions := some [{}] } : ReassignableTopicResponse45), (app_ne_right rfl (stale_or h))⟩

/-- What `t0` becomes where a new `AlterPartitionReassignmentsResponse` becomes `y`. -/
def AlterPartitionReassignmentsResponse.over (_version : Int16) (y t0 : AlterPartitionReassignmentsResponse) : AlterPartitionReassignmentsResponse :=
  { ThrottleTimeMs := y.ThrottleTimeMs,
    ErrorCode := y.ErrorCode,
    ErrorMessage := y.ErrorMessage,
    Responses := y.Responses.or t0.Responses }

/-- An array of structures is nil. -/
def AlterPartitionReassignmentsResponse.Nulls (_version : Int16) (y : AlterPartitionReassignmentsResponse) : Prop :=
  y.Responses = none

/-- `AlterPartitionReassignmentsResponse` in use again. -/
def AlterPartitionReassignmentsResponse.reuse : Reuse AlterPartitionReassignmentsResponse.type := { over := AlterPartitionReassignmentsResponse.over, Nulls := AlterPartitionReassignmentsResponse.Nulls }

/-- The same after the first `k` statements of `Decode`. -/
def AlterPartitionReassignmentsResponse.overAt (_version : Int16) (k : Nat) (y t0 : AlterPartitionReassignmentsResponse) : AlterPartitionReassignmentsResponse :=
  { ThrottleTimeMs := upto k 0 (y.ThrottleTimeMs) t0.ThrottleTimeMs,
    ErrorCode := upto k 1 (y.ErrorCode) t0.ErrorCode,
    ErrorMessage := upto k 2 (y.ErrorMessage) t0.ErrorMessage,
    Responses := y.Responses.or t0.Responses }

theorem AlterPartitionReassignmentsResponse.sim (v : Int16) (t0 : AlterPartitionReassignmentsResponse) : Sim (AlterPartitionReassignmentsResponse.overAt v 0 · t0) (AlterPartitionReassignmentsResponse.overAt v 4 · t0) (AlterPartitionReassignmentsResponse.decode v) :=
  ((.field fun _ _ => rfl) : Sim (AlterPartitionReassignmentsResponse.overAt v 0 · t0) (AlterPartitionReassignmentsResponse.overAt v 1 · t0) _)
    |>.andThen ((.field fun _ _ => rfl) : Sim (AlterPartitionReassignmentsResponse.overAt v 1 · t0) (AlterPartitionReassignmentsResponse.overAt v 2 · t0) _)
    |>.andThen ((.field fun _ _ => rfl) : Sim (AlterPartitionReassignmentsResponse.overAt v 2 · t0) (AlterPartitionReassignmentsResponse.overAt v 3 · t0) _)
    |>.andThen ((.structs (fun _ _ => rfl) fun _ => rfl) : Sim (AlterPartitionReassignmentsResponse.overAt v 3 · t0) (AlterPartitionReassignmentsResponse.overAt v 4 · t0) _)
theorem AlterPartitionReassignmentsResponse.reusable : AlterPartitionReassignmentsResponse.reuse.Holds AlterPartitionReassignmentsResponse.layout where
  decode v t0 d := by
    have h := AlterPartitionReassignmentsResponse.sim v t0 {} d
    have e : AlterPartitionReassignmentsResponse.overAt v 0 {} t0 = t0 := by first | rfl | (simp only [AlterPartitionReassignmentsResponse.overAt, upto_zero, Option.none_or, ite_self] <;> rfl)
    simp only [e] at h
    exact h
  same v y t0 h := (app_congr (app_congr (app_congr rfl rfl) rfl) (same_or fun hn => h (hn)))
  stale v y h := by
    obtain h := h
    · exact ⟨({ Responses := some [{}] } : AlterPartitionReassignmentsResponse), (app_ne_right (app_congr (app_congr rfl rfl) rfl) (stale_or h))⟩

/-- The structures of the AlterPartitionReassignments messages. -/
def reuseAlterPartitionReassignments : List (Σ (M : MsgType) (_ : Layout M), Reuse M) :=
  [⟨AlterPartitionReassignmentsRequest.type, AlterPartitionReassignmentsRequest.layout, AlterPartitionReassignmentsRequest.reuse⟩,
   ⟨ReassignableTopic45.type, ReassignableTopic45.layout, ReassignableTopic45.reuse⟩,
   ⟨ReassignablePartition45.type, ReassignablePartition45.layout, ReassignablePartition45.reuse⟩,
   ⟨AlterPartitionReassignmentsResponse.type, AlterPartitionReassignmentsResponse.layout, AlterPartitionReassignmentsResponse.reuse⟩,
   ⟨ReassignableTopicResponse45.type, ReassignableTopicResponse45.layout, ReassignableTopicResponse45.reuse⟩,
   ⟨ReassignablePartitionResponse45.type, ReassignablePartitionResponse45.layout, ReassignablePartitionResponse45.reuse⟩]
theorem reuseAlterPartitionReassignments_holds : ∀ p ∈ reuseAlterPartitionReassignments, p.2.2.Holds p.2.1 := by
  unfold reuseAlterPartitionReassignments
  simp only [List.forall_mem_cons]
  exact ⟨AlterPartitionReassignmentsRequest.reusable, ReassignableTopic45.reusable, ReassignablePartition45.reusable, AlterPartitionReassignmentsResponse.reusable, ReassignableTopicResponse45.reusable, ReassignablePartitionResponse45.reusable, fun _ h => absurd h (by simp)⟩

end Kafka.Msg
