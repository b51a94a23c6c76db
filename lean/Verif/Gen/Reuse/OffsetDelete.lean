import Verif.Message.Reuse
import Verif.Gen.Spec.OffsetDelete
/-!
Generated by tools/gen_messages.py: decoding into OffsetDelete messages used before.
-/
set_option linter.unusedSimpArgs false
set_option linter.unusedVariables false
namespace Kafka.Msg

/-- What `t0` becomes where a new `OffsetDeleteRequestPartition47` becomes `y`. -/
def OffsetDeleteRequestPartition47.over (_version : Int16) (y _t0 : OffsetDeleteRequestPartition47) : OffsetDeleteRequestPartition47 :=
  { PartitionIndex := y.PartitionIndex }

/-- An array of structures is nil. -/
def OffsetDeleteRequestPartition47.Nulls (_version : Int16) (_y : OffsetDeleteRequestPartition47) : Prop :=
  False

/-- `OffsetDeleteRequestPartition47` in use again. -/
def OffsetDeleteRequestPartition47.reuse : Reuse OffsetDeleteRequestPartition47.type := { over := OffsetDeleteRequestPartition47.over, Nulls := OffsetDeleteRequestPartition47.Nulls }

/-- The same after the first `k` statements of `Decode`. -/
def OffsetDeleteRequestPartition47.overAt (_version : Int16) (k : Nat) (y t0 : OffsetDeleteRequestPartition47) : OffsetDeleteRequestPartition47 :=
  { PartitionIndex := upto k 0 (y.PartitionIndex) t0.PartitionIndex }

theorem OffsetDeleteRequestPartition47.sim (v : Int16) (t0 : OffsetDeleteRequestPartition47) : Sim (OffsetDeleteRequestPartition47.overAt v 0 · t0) (OffsetDeleteRequestPartition47.overAt v 1 · t0) (OffsetDeleteRequestPartition47.decode v) :=
  ((.field fun _ _ => rfl) : Sim (OffsetDeleteRequestPartition47.overAt v 0 · t0) (OffsetDeleteRequestPartition47.overAt v 1 · t0) _)
theorem OffsetDeleteRequestPartition47.reusable : OffsetDeleteRequestPartition47.reuse.Holds OffsetDeleteRequestPartition47.layout where
  decode v t0 d := by
    have h := OffsetDeleteRequestPartition47.sim v t0 {} d
    have e : OffsetDeleteRequestPartition47.overAt v 0 {} t0 = t0 := by first | rfl | (simp only [OffsetDeleteRequestPartition47.overAt, upto_zero, Option.none_or, ite_self] <;> rfl)
    simp only [e] at h
    exact h
  same v y t0 _h := rfl
  stale _ _ h := h.elim

/-- What `t0` becomes where a new `OffsetDeleteRequestTopic47` becomes `y`. -/
def OffsetDeleteRequestTopic47.over (_version : Int16) (y t0 : OffsetDeleteRequestTopic47) : OffsetDeleteRequestTopic47 :=
  { Name := y.Name,
    Partitions := y.Partitions.or t0.Partitions }

/-- An array of structures is nil. -/
def OffsetDeleteRequestTopic47.Nulls (_version : Int16) (y : OffsetDeleteRequestTopic47) : Prop :=
  y.Partitions = none

/-- `OffsetDeleteRequestTopic47` in use again. -/
def OffsetDeleteRequestTopic47.reuse : Reuse OffsetDeleteRequestTopic47.type := { over := OffsetDeleteRequestTopic47.over, Nulls := OffsetDeleteRequestTopic47.Nulls }

/-- The same after the first `k` statements of `Decode`. -/
def OffsetDeleteRequestTopic47.overAt (_version : Int16) (k : Nat) (y t0 : OffsetDeleteRequestTopic47) : OffsetDeleteRequestTopic47 :=
  { Name := upto k 0 (y.Name) t0.Name,
    Partitions := y.Partitions.or t0.Partitions }

theorem OffsetDeleteRequestTopic47.sim (v : Int16) (t0 : OffsetDeleteRequestTopic47) : Sim (OffsetDeleteRequestTopic47.overAt v 0 · t0) (OffsetDeleteRequestTopic47.overAt v 2 · t0) (OffsetDeleteRequestTopic47.decode v) :=
  ((.field fun _ _ => rfl) : Sim (OffsetDeleteRequestTopic47.overAt v 0 · t0) (OffsetDeleteRequestTopic47.overAt v 1 · t0) _)
    |>.andThen ((.structs (fun _ _ => rfl) fun _ => rfl) : Sim (OffsetDeleteRequestTopic47.overAt v 1 · t0) (OffsetDeleteRequestTopic47.overAt v 2 · t0) _)
theorem OffsetDeleteRequestTopic47.reusable : OffsetDeleteRequestTopic47.reuse.Holds OffsetDeleteRequestTopic47.layout where
  decode v t0 d := by
    have h := OffsetDeleteRequestTopic47.sim v t0 {} d
    have e : OffsetDeleteRequestTopic47.overAt v 0 {} t0 = t0 := by first | rfl | (simp only [OffsetDeleteRequestTopic47.overAt, upto_zero, Option.none_or, ite_self] <;> rfl)
    simp only [e] at h
    exact h
  same v y t0 h := (app_congr rfl (same_or fun hn => h (hn)))
  stale v y h := by
    obtain h := h
    · exact ⟨({ Partitions := some [{}] } : OffsetDeleteRequestTopic47), (app_ne_right rfl (stale_or h))⟩

/-- What `t0` becomes where a new `OffsetDeleteRequest` becomes `y`. -/
def OffsetDeleteRequest.over (_version : Int16) (y t0 : OffsetDeleteRequest) : OffsetDeleteRequest :=
  { GroupId := y.GroupId,
    Topics := y.Topics.or t0.Topics }

/-- An array of structures is nil. -/
def OffsetDeleteRequest.Nulls (_version : Int16) (y : OffsetDeleteRequest) : Prop :=
  y.Topics = none

/-- `OffsetDeleteRequest` in use again. -/
def OffsetDeleteRequest.reuse : Reuse OffsetDeleteRequest.type := { over := OffsetDeleteRequest.over, Nulls := OffsetDeleteRequest.Nulls }

/-- The same after the first `k` statements of `Decode`. -/
def OffsetDeleteRequest.overAt (_version : Int16) (k : Nat) (y t0 : OffsetDeleteRequest) : OffsetDeleteRequest :=
  { GroupId := upto k 0 (y.GroupId) t0.GroupId,
    Topics := y.Topics.or t0.Topics }

theorem OffsetDeleteRequest.sim (v : Int16) (t0 : OffsetDeleteRequest) : Sim (OffsetDeleteRequest.overAt v 0 · t0) (OffsetDeleteRequest.overAt v 2 · t0) (OffsetDeleteRequest.decode v) :=
  ((.field fun _ _ => rfl) : Sim (OffsetDeleteRequest.overAt v 0 · t0) (OffsetDeleteRequest.overAt v 1 · t0) _)
    |>.andThen ((.structs (fun _ _ => rfl) fun _ => rfl) : Sim (OffsetDeleteRequest.overAt v 1 · t0) (OffsetDeleteRequest.overAt v 2 · t0) _)
theorem OffsetDeleteRequest.reusable : OffsetDeleteRequest.reuse.Holds OffsetDeleteRequest.layout where
  decode v t0 d := by
    have h := OffsetDeleteRequest.sim v t0 {} d
    have e : OffsetDeleteRequest.overAt v 0 {} t0 = t0 := by first | rfl | (simp only [OffsetDeleteRequest.overAt, upto_zero, Option.none_or, ite_self] <;> rfl)
    simp only [e] at h
    exact h
  same v y t0 h := (app_congr rfl (same_or fun hn => h (hn)))
  stale v y h := by
    obtain h := h
    · exact ⟨({ Topics := some [{}] } : OffsetDeleteRequest), (app_ne_right rfl (stale_or h))⟩

/-- What `t0` becomes where a new `OffsetDeleteResponsePartition47` becomes `y`. -/
def OffsetDeleteResponsePartition47.over (_version : Int16) (y _t0 : OffsetDeleteResponsePartition47) : OffsetDeleteResponsePartition47 :=
  { PartitionIndex := y.PartitionIndex,
    ErrorCode := y.ErrorCode }

/-- An array of structures is nil. -/
def OffsetDeleteResponsePartition47.Nulls (_version : Int16) (_y : OffsetDeleteResponsePartition47) : Prop :=
  False

/-- `OffsetDeleteResponsePartition47` in use again. -/
def OffsetDeleteResponsePartition47.reuse : Reuse OffsetDeleteResponsePartition47.type := { over := OffsetDeleteResponsePartition47.over, Nulls := OffsetDeleteResponsePartition47.Nulls }

/-- The same after the first `k` statements of `Decode`. -/
def OffsetDeleteResponsePartition47.overAt (_version : Int16) (k : Nat) (y t0 : OffsetDeleteResponsePartition47) : OffsetDeleteResponsePartition47 :=
  { PartitionIndex := upto k 0 (y.PartitionIndex) t0.PartitionIndex,
    ErrorCode := upto k 1 (y.ErrorCode) t0.ErrorCode }

theorem OffsetDeleteResponsePartition47.sim (v : Int16) (t0 : OffsetDeleteResponsePartition47) : Sim (OffsetDeleteResponsePartition47.overAt v 0 · t0) (OffsetDeleteResponsePartition47.overAt v 2 · t0) (OffsetDeleteResponsePartition47.decode v) :=
  ((.field fun _ _ => rfl) : Sim (OffsetDeleteResponsePartition47.overAt v 0 · t0) (OffsetDeleteResponsePartition47.overAt v 1 · t0) _)
    |>.andThen ((.field fun _ _ => rfl) : Sim (OffsetDeleteResponsePartition47.overAt v 1 · t0) (OffsetDeleteResponsePartition47.overAt v 2 · t0) _)
theorem OffsetDeleteResponsePartition47.reusable : OffsetDeleteResponsePartition47.reuse.Holds OffsetDeleteResponsePartition47.layout where
  decode v t0 d := by
    have h := OffsetDeleteResponsePartition47.sim v t0 {} d
    have e : OffsetDeleteResponsePartition47.overAt v 0 {} t0 = t0 := by first | rfl | (simp only [OffsetDeleteResponsePartition47.overAt, upto_zero, Option.none_or, ite_self] <;> rfl)
    simp only [e] at h
    exact h
  same v y t0 _h := (app_congr rfl rfl)
  stale _ _ h := h.elim

/-- What `t0` becomes where a new `OffsetDeleteResponseTopic47` becomes `y`. -/
def OffsetDeleteResponseTopic47.over (_version : Int16) (y t0 : OffsetDeleteResponseTopic47) : OffsetDeleteResponseTopic47 :=
  { Name := y.Name,
    Partitions := y.Partitions.or t0.Partitions }

/-- An array of structures is nil. -/
def OffsetDeleteResponseTopic47.Nulls (_version : Int16) (y : OffsetDeleteResponseTopic47) : Prop :=
  y.Partitions = none

/-- `OffsetDeleteResponseTopic47` in use again. -/
def OffsetDeleteResponseTopic47.reuse : Reuse OffsetDeleteResponseTopic47.type := { over := OffsetDeleteResponseTopic47.over, Nulls := OffsetDeleteResponseTopic47.Nulls }

/-- The same after the first `k` statements of `Decode`. -/
def OffsetDeleteResponseTopic47.overAt (_version : Int16) (k : Nat) (y t0 : OffsetDeleteResponseTopic47) : OffsetDeleteResponseTopic47 :=
  { Name := upto k 0 (y.Name) t0.Name,
    Partitions := y.Partitions.or t0.Partitions }

theorem OffsetDeleteResponseTopic47.sim (v : Int16) (t0 : OffsetDeleteResponseTopic47) : Sim (OffsetDeleteResponseTopic47.overAt v 0 · t0) (OffsetDeleteResponseTopic47.overAt v 2 · t0) (OffsetDeleteResponseTopic47.decode v) :=
  ((.field fun _ _ => rfl) : Sim (OffsetDeleteResponseTopic47.overAt v 0 · t0) (OffsetDeleteResponseTopic47.overAt v 1 · t0) _)
    |>.andThen ((.structs (fun _ _ => rfl) fun _ => rfl) : Sim (OffsetDeleteResponseTopic47.overAt v 1 · t0) (OffsetDeleteResponseTopic47.overAt v 2 · t0) _)
theorem OffsetDeleteResponseTopic47.reusable : OffsetDeleteResponseTopic47.reuse.Holds OffsetDeleteResponseTopic47.layout where
  decode v t0 d := by
    have h := OffsetDeleteResponseTopic47.sim v t0 {} d
    have e : OffsetDeleteResponseTopic47.overAt v 0 {} t0 = t0 := by first | rfl | (simp only [OffsetDeleteResponseTopic47.overAt, upto_zero, Option.none_or, ite_self] <;> rfl)
    simp only [e] at h
    exact h
  same v y t0 h := (app_congr rfl (same_or fun hn => h (hn)))
  stale v y h := by
    obtain h := h
    · exact ⟨({ Partitions := some [{}] } : OffsetDeleteResponseTopic47), (app_ne_right rfl (stale_or h))⟩

/-- What `t0` becomes where a new `OffsetDeleteResponse` becomes `y`. -/
def OffsetDeleteResponse.over (_version : Int16) (y t0 : OffsetDeleteResponse) : OffsetDeleteResponse :=
  { ErrorCode := y.ErrorCode,
    ThrottleTimeMs := y.ThrottleTimeMs,
    Topics := y.Topics.or t0.Topics }

/-- An array of structures is nil. -/
def OffsetDeleteResponse.Nulls (_version : Int16) (y : OffsetDeleteResponse) : Prop :=
  y.Topics = none

/-- `OffsetDeleteResponse` in use again. -/
def OffsetDeleteResponse.reuse : Reuse OffsetDeleteResponse.type := { over := OffsetDeleteResponse.over, Nulls := OffsetDeleteResponse.Nulls }

/-- The same after the first `k` statements of `Decode`. -/
def OffsetDeleteResponse.overAt (_version : Int16) (k : Nat) (y t0 : OffsetDeleteResponse) : OffsetDeleteResponse :=
  { ErrorCode := upto k 0 (y.ErrorCode) t0.ErrorCode,
    ThrottleTimeMs := upto k 1 (y.ThrottleTimeMs) t0.ThrottleTimeMs,
    Topics := y.Topics.or t0.Topics }

theorem OffsetDeleteResponse.sim (v : Int16) (t0 : OffsetDeleteResponse) : Sim (OffsetDeleteResponse.overAt v 0 · t0) (OffsetDeleteResponse.overAt v 3 · t0) (OffsetDeleteResponse.decode v) :=
  ((.field fun _ _ => rfl) : Sim (OffsetDeleteResponse.overAt v 0 · t0) (OffsetDeleteResponse.overAt v 1 · t0) _)
    |>.andThen ((.field fun _ _ => rfl) : Sim (OffsetDeleteResponse.overAt v 1 · t0) (OffsetDeleteResponse.overAt v 2 · t0) _)
    |>.andThen ((.structs (fun _ _ => rfl) fun _ => rfl) : Sim (OffsetDeleteResponse.overAt v 2 · t0) (OffsetDeleteResponse.overAt v 3 · t0) _)
theorem OffsetDeleteResponse.reusable : OffsetDeleteResponse.reuse.Holds OffsetDeleteResponse.layout where
  decode v t0 d := by
    have h := OffsetDeleteResponse.sim v t0 {} d
    have e : OffsetDeleteResponse.overAt v 0 {} t0 = t0 := by first | rfl | (simp only [OffsetDeleteResponse.overAt, upto_zero, Option.none_or, ite_self] <;> rfl)
    simp only [e] at h
    exact h
  same v y t0 h := (app_congr (app_congr rfl rfl) (same_or fun hn => h (hn)))
  stale v y h := by
    obtain h := h
    · exact ⟨({ Topics := some [{}] } : OffsetDeleteResponse), (app_ne_right (app_congr rfl rfl) (stale_or h))⟩

/-- The structures of the OffsetDelete messages. -/
def reuseOffsetDelete : List (Σ (M : MsgType) (_ : Layout M), Reuse M) :=
  [⟨OffsetDeleteRequest.type, OffsetDeleteRequest.layout, OffsetDeleteRequest.reuse⟩,
   ⟨OffsetDeleteRequestTopic47.type, OffsetDeleteRequestTopic47.layout, OffsetDeleteRequestTopic47.reuse⟩,
   ⟨OffsetDeleteRequestPartition47.type, OffsetDeleteRequestPartition47.layout, OffsetDeleteRequestPartition47.reuse⟩,
   ⟨OffsetDeleteResponse.type, OffsetDeleteResponse.layout, OffsetDeleteResponse.reuse⟩,
   ⟨OffsetDeleteResponseTopic47.type, OffsetDeleteResponseTopic47.layout, OffsetDeleteResponseTopic47.reuse⟩,
   ⟨OffsetDeleteResponsePartition47.type, OffsetDeleteResponsePartition47.layout, OffsetDeleteResponsePartition47.reuse⟩]
theorem reuseOffsetDelete_holds : ∀ p ∈ reuseOffsetDelete, p.2.2.Holds p.2.1 := by
  unfold reuseOffsetDelete
  simp only [List.forall_mem_cons]
  exact ⟨OffsetDeleteRequest.reusable, OffsetDeleteRequestTopic47.reusable, OffsetDeleteRequestPartition47.reusable, OffsetDeleteResponse.reusable, OffsetDeleteResponseTopic47.reusable, OffsetDeleteResponsePartition47.reusable, fun _ h => absurd h (by simp)⟩

end Kafka.Msg
