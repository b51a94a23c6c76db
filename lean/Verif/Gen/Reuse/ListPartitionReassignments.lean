import Verif.Message.Reuse
import Verif.Gen.Spec.ListPartitionReassignments
/-!
Generated by tools/gen_messages.py: decoding into ListPartitionReassignments messages used before.
-/
set_option linter.unusedSimpArgs false
set_option linter.unusedVariables false
namespace Kafka.Msg

/-- What `t0` becomes where a new `ListPartitionReassignmentsTopics46` becomes `y`. -/
def ListPartitionReassignmentsTopics46.over (_version : Int16) (y _t0 : ListPartitionReassignmentsTopics46) : ListPartitionReassignmentsTopics46 :=
  { Name := y.Name,
    PartitionIndexes := y.PartitionIndexes }

/-- An array of structures is nil. -/
def ListPartitionReassignmentsTopics46.Nulls (_version : Int16) (_y : ListPartitionReassignmentsTopics46) : Prop :=
  False

/-- `ListPartitionReassignmentsTopics46` in use again. -/
def ListPartitionReassignmentsTopics46.reuse : Reuse ListPartitionReassignmentsTopics46.type := { over := ListPartitionReassignmentsTopics46.over, Nulls := ListPartitionReassignmentsTopics46.Nulls }

/-- The same after the first `k` statements of `Decode`. -/
def ListPartitionReassignmentsTopics46.overAt (_version : Int16) (k : Nat) (y t0 : ListPartitionReassignmentsTopics46) : ListPartitionReassignmentsTopics46 :=
  { Name := upto k 0 (y.Name) t0.Name,
    PartitionIndexes := upto k 1 (y.PartitionIndexes) t0.PartitionIndexes }

theorem ListPartitionReassignmentsTopics46.sim (v : Int16) (t0 : ListPartitionReassignmentsTopics46) : Sim (ListPartitionReassignmentsTopics46.overAt v 0 · t0) (ListPartitionReassignmentsTopics46.overAt v 2 · t0) (ListPartitionReassignmentsTopics46.decode v) :=
  ((.field fun _ _ => rfl) : Sim (ListPartitionReassignmentsTopics46.overAt v 0 · t0) (ListPartitionReassignmentsTopics46.overAt v 1 · t0) _)
    |>.andThen ((.field fun _ _ => rfl) : Sim (ListPartitionReassignmentsTopics46.overAt v 1 · t0) (ListPartitionReassignmentsTopics46.overAt v 2 · t0) _)
theorem ListPartitionReassignmentsTopics46.reusable : ListPartitionReassignmentsTopics46.reuse.Holds ListPartitionReassignmentsTopics46.layout where
  decode v t0 d := by
    have h := ListPartitionReassignmentsTopics46.sim v t0 {} d
    have e : ListPartitionReassignmentsTopics46.overAt v 0 {} t0 = t0 := by first | rfl | (simp only [ListPartitionReassignmentsTopics46.overAt, upto_zero, Option.none_or, ite_self] <;> rfl)
    simp only [e] at h
    exact h
  same v y t0 _h := (app_congr rfl rfl)
  stale _ _ h := h.elim

/-- What `t0` becomes where a new `ListPartitionReassignmentsRequest` becomes `y`. -/
def ListPartitionReassignmentsRequest.over (_version : Int16) (y t0 : ListPartitionReassignmentsRequest) : ListPartitionReassignmentsRequest :=
  { TimeoutMs := y.TimeoutMs,
    Topics := y.Topics.or t0.Topics }

/-- An array of structures is nil. -/
def ListPartitionReassignmentsRequest.Nulls (_version : Int16) (y : ListPartitionReassignmentsRequest) : Prop :=
  y.Topics = none

/-- `ListPartitionReassignmentsRequest` in use again. -/
def ListPartitionReassignmentsRequest.reuse : Reuse ListPartitionReassignmentsRequest.type := { over := ListPartitionReassignmentsRequest.over, Nulls := ListPartitionReassignmentsRequest.Nulls }

/-- The same after the first `k` statements of `Decode`. -/
def ListPartitionReassignmentsRequest.overAt (_version : Int16) (k : Nat) (y t0 : ListPartitionReassignmentsRequest) : ListPartitionReassignmentsRequest :=
  { TimeoutMs := upto k 0 (y.TimeoutMs) t0.TimeoutMs,
    Topics := y.Topics.or t0.Topics }

theorem ListPartitionReassignmentsRequest.sim (v : Int16) (t0 : ListPartitionReassignmentsRequest) : Sim (ListPartitionReassignmentsRequest.overAt v 0 · t0) (ListPartitionReassignmentsRequest.overAt v 2 · t0) (ListPartitionReassignmentsRequest.decode v) :=
  ((.field fun _ _ => rfl) : Sim (ListPartitionReassignmentsRequest.overAt v 0 · t0) (ListPartitionReassignmentsRequest.overAt v 1 · t0) _)
    |>.andThen ((.structs (fun _ _ => rfl) fun _ => rfl) : Sim (ListPartitionReassignmentsRequest.overAt v 1 · t0) (ListPartitionReassignmentsRequest.overAt v 2 · t0) _)
theorem ListPartitionReassignmentsRequest.reusable : ListPartitionReassignmentsRequest.reuse.Holds ListPartitionReassignmentsRequest.layout where
  decode v t0 d := by
    have h := ListPartitionReassignmentsRequest.sim v t0 {} d
    have e : ListPartitionReassignmentsRequest.overAt v 0 {} t0 = t0 := by first | rfl | (simp only [ListPartitionReassignmentsRequest.overAt, upto_zero, Option.none_or, ite_self] <;> rfl)
    simp only [e] at h
    exact h
  same v y t0 h := (app_congr rfl (same_or fun hn => h (hn)))
  stale v y h := by
    obtain h := h
    · exact ⟨({ Topics := some [{}] } : ListPartitionReassignmentsRequest), (app_ne_right rfl (stale_or h))⟩

/-- What `t0` becomes where a new `OngoingPartitionReassignment46` becomes `y`. -/
def OngoingPartitionReassignment46.over (_version : Int16) (y _t0 : OngoingPartitionReassignment46) : OngoingPartitionReassignment46 :=
  { PartitionIndex := y.PartitionIndex,
    Replicas := y.Replicas,
    AddingReplicas := y.AddingReplicas,
    RemovingReplicas := y.RemovingReplicas }

/-- An array of structures is nil. -/
def OngoingPartitionReassignment46.Nulls (_version : Int16) (_y : OngoingPartitionReassignment46) : Prop :=
  False

/-- `OngoingPartitionReassignment46` in use again. -/
def OngoingPartitionReassignment46.reuse : Reuse OngoingPartitionReassignment46.type := { over := OngoingPartitionReassignment46.over, Nulls := OngoingPartitionReassignment46.Nulls }

/-- The same after the first `k` statements of `Decode`. -/
def OngoingPartitionReassignment46.overAt (_version : Int16) (k : Nat) (y t0 : OngoingPartitionReassignment46) : OngoingPartitionReassignment46 :=
  { PartitionIndex := upto k 0 (y.PartitionIndex) t0.PartitionIndex,
    Replicas := upto k 1 (y.Replicas) t0.Replicas,
    AddingReplicas := upto k 2 (y.AddingReplicas) t0.AddingReplicas,
    RemovingReplicas := upto k 3 (y.RemovingReplicas) t0.RemovingReplicas }

theorem OngoingPartitionReassignment46.sim (v : Int16) (t0 : OngoingPartitionReassignment46) : Sim (OngoingPartitionReassignment46.overAt v 0 · t0) (OngoingPartitionReassignment46.overAt v 4 · t0) (OngoingPartitionReassignment46.decode v) :=
  ((.field fun _ _ => rfl) : Sim (OngoingPartitionReassignment46.overAt v 0 · t0) (OngoingPartitionReassignment46.overAt v 1 · t0) _)
    |>.andThen ((.field fun _ _ => rfl) : Sim (OngoingPartitionReassignment46.overAt v 1 · t0) (OngoingPartitionReassignment46.overAt v 2 · t0) _)
    |>.andThen ((.field fun _ _ => rfl) : Sim (OngoingPartitionReassignment46.overAt v 2 · t0) (OngoingPartitionReassignment46.overAt v 3 · t0) _)
    |>.andThen ((.field fun _ _ => rfl) : Sim (OngoingPartitionReassignment46.overAt v 3 · t0) (OngoingPartitionReassignment46.overAt v 4 · t0) _)
theorem OngoingPartitionReassignment46.reusable : OngoingPartitionReassignment46.reuse.Holds OngoingPartitionReassignment46.layout where
  decode v t0 d := by
    have h := OngoingPartitionReassignment46.sim v t0 {} d
    have e : OngoingPartitionReassignment46.overAt v 0 {} t0 = t0 := by first | rfl | (simp only [OngoingPartitionReassignment46.overAt, upto_zero, Option.none_or, ite_self] <;> rfl)
    simp only [e] at h
    exact h
  same v y t0 _h := (app_congr (app_congr (app_congr rfl rfl) rfl) rfl)
  stale _ _ h := h.elim

/-- What `t0` becomes where a new `OngoingTopicReassignment46` becomes `y`. -/
def OngoingTopicReassignment46.over (_version : Int16) (y t0 : OngoingTopicReassignment46) : OngoingTopicReassignment46 :=
  { Name := y.Name,
    Partitions := y.Partitions.or t0.Partitions }

/-- An array of structures is nil. -/
def OngoingTopicReassignment46.Nulls (_version : Int16) (y : OngoingTopicReassignment46) : Prop :=
  y.Partitions = none

/-- `OngoingTopicReassignment46` in use again. -/
def OngoingTopicReassignment46.reuse : Reuse OngoingTopicReassignment46.type := { over := OngoingTopicReassignment46.over, Nulls := OngoingTopicReassignment46.Nulls }

/-- The same after the first `k` statements of `Decode`. -/
def OngoingTopicReassignment46.overAt (_version : Int16) (k : Nat) (y t0 : OngoingTopicReassignment46) : OngoingTopicReassignment46 :=
  { Name := upto k 0 (y.Name) t0.Name,
    Partitions := y.Partitions.or t0.Partitions }

theorem OngoingTopicReassignment46.sim (v : Int16) (t0 : OngoingTopicReassignment46) : Sim (OngoingTopicReassignment46.overAt v 0 · t0) (OngoingTopicReassignment46.overAt v 2 · t0) (OngoingTopicReassignment46.decode v) :=
  ((.field fun _ _ => rfl) : Sim (OngoingTopicReassignment46.overAt v 0 · t0) (OngoingTopicReassignment46.overAt v 1 · t0) _)
    |>.andThen ((.structs (fun _ _ => rfl) fun _ => rfl) : Sim (OngoingTopicReassignment46.overAt v 1 · t0) (OngoingTopicReassignment46.overAt v 2 · t0) _)
theorem OngoingTopicReassignment46.reusable : OngoingTopicReassignment46.reuse.Holds OngoingTopicReassignment46.layout where
  decode v t0 d := by
    have h := OngoingTopicReassignment46.sim v t0 {} d
    have e : OngoingTopicReassignment46.overAt v 0 {} t0 = t0 := by first | rfl | (simp only [OngoingTopicReassignment46.overAt, upto_zero, Option.none_or, ite_self] <;> rfl)
    simp only [e] at h
    exact h
  same v y t0 h := (app_congr rfl (same_or fun hn => h (hn)))
  stale v y h := by
    obtain h := h
    · exact ⟨({ Partitions := some [{}] } : OngoingTopicReassignment46), (app_ne_right rfl (stale_or h))⟩

/-- What `t0` becomes where a new `ListPartitionReassignmentsResponse` becomes `y`. -/
def ListPartitionReassignmentsResponse.over (_version : Int16) (y t0 : ListPartitionReassignmentsResponse) : ListPartitionReassignmentsResponse :=
  { ThrottleTimeMs := y.ThrottleTimeMs,
    ErrorCode := y.ErrorCode,
    ErrorMessage := y.ErrorMessage,
    Topics := y.Topics.or t0.Topics }

/-- An array of structures is nil. -/
def ListPartitionReassignmentsResponse.Nulls (_version : Int16) (y : ListPartitionReassignmentsResponse) : Prop :=
  y.Topics = none

/-- `ListPartitionReassignmentsResponse` in use again. -/
def ListPartitionReassignmentsResponse.reuse : Reuse ListPartitionReassignmentsResponse.type := { over := ListPartitionReassignmentsResponse.over, Nulls := ListPartitionReassignmentsResponse.Nulls }

/-- The same after the first `k` statements of `Decode`. -/
def ListPartitionReassignmentsResponse.overAt (_version : Int16) (k : Nat) (y t0 : ListPartitionReassignmentsResponse) : ListPartitionReassignmentsResponse :=
  { ThrottleTimeMs := upto k 0 (y.ThrottleTimeMs) t0.ThrottleTimeMs,
    ErrorCode := upto k 1 (y.ErrorCode) t0.ErrorCode,
    ErrorMessage := upto k 2 (y.ErrorMessage) t0.ErrorMessage,
    Topics := y.Topics.or t0.Topics }

theorem ListPartitionReassignmentsResponse.sim (v : Int16) (t0 : ListPartitionReassignmentsResponse) : Sim (ListPartitionReassignmentsResponse.overAt v 0 · t0) (ListPartitionReassignmentsResponse.overAt v 4 · t0) (ListPartitionReassignmentsResponse.decode v) :=
  ((.field fun _ _ => rfl) : Sim (ListPartitionReassignmentsResponse.overAt v 0 · t0) (ListPartitionReassignmentsResponse.overAt v 1 · t0) _)
    |>.andThen ((.field fun _ _ => rfl) : Sim (ListPartitionReassignmentsResponse.overAt v 1 · t0) (ListPartitionReassignmentsResponse.overAt v 2 · t0) _)
    |>.andThen ((.field fun _ _ => rfl) : Sim (ListPartitionReassignmentsResponse.overAt v 2 · t0) (ListPartitionReassignmentsResponse.overAt v 3 · t0) _)
    |>.andThen ((.structs (fun _ _ => rfl) fun _ => rfl) : Sim (ListPartitionReassignmentsResponse.overAt v 3 · t0) (ListPartitionReassignmentsResponse.overAt v 4 · t0) _)
theorem ListPartitionReassignmentsResponse.reusable : ListPartitionReassignmentsResponse.reuse.Holds ListPartitionReassignmentsResponse.layout where
  decode v t0 d := by
    have h := ListPartitionReassignmentsResponse.sim v t0 {} d
    have e : ListPartitionReassignmentsResponse.overAt v 0 {} t0 = t0 := by first | rfl | (simp only [ListPartitionReassignmentsResponse.overAt, upto_zero, Option.none_or, ite_self] <;> rfl)
    simp only [e] at h
    exact h
  same v y t0 h := (app_congr (app_congr (app_congr rfl rfl) rfl) (same_or fun hn => h (hn)))
  stale v y h := by
    obtain h := h
    · exact ⟨({ Topics := some [{}] } : ListPartitionReassignmentsResponse), (app_ne_right (app_congr (app_congr rfl rfl) rfl) (stale_or h))⟩

/-- The structures of the ListPartitionReassignments messages. -/
def reuseListPartitionReassignments : List (Σ (M : MsgType) (_ : Layout M), Reuse M) :=
  [⟨ListPartitionReassignmentsRequest.type, ListPartitionReassignmentsRequest.layout, ListPartitionReassignmentsRequest.reuse⟩,
   ⟨ListPartitionReassignmentsTopics46.type, ListPartitionReassignmentsTopics46.layout, ListPartitionReassignmentsTopics46.reuse⟩,
   ⟨ListPartitionReassignmentsResponse.type, ListPartitionReassignmentsResponse.layout, ListPartitionReassignmentsResponse.reuse⟩,
   ⟨OngoingTopicReassignment46.type, OngoingTopicReassignment46.layout, OngoingTopicReassignment46.reuse⟩,
   ⟨OngoingPartitionReassignment46.type, OngoingPartitionReassignment46.layout, OngoingPartitionReassignment46.reuse⟩]
theorem reuseListPartitionReassignments_holds : ∀ p ∈ reuseListPartitionReassignments, p.2.2.Holds p.2.1 := by
  unfold reuseListPartitionReassignments
  simp only [List.forall_mem_cons]
  exact ⟨ListPartitionReassignmentsRequest.reusable, ListPartitionReassignmentsTopics46.reusable, ListPartitionReassignmentsResponse.reusable, OngoingTopicReassignment46.reusable, OngoingPartitionReassignment46.reusable, fun _ h => absurd h (by simp)⟩

end Kafka.Msg
