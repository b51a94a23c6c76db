import Verif.Message.Reuse
import Verif.Gen.Spec.AddPartitionsToTxn
/-!
Generated by tools/gen_messages.py: decoding into AddPartitionsToTxn messages used before.
-/
set_option linter.unusedSimpArgs false
set_option linter.unusedVariables false
namespace Kafka.Msg

/-- What `t0` becomes where a new `AddPartitionsToTxnTopic24` becomes `y`. -/
def AddPartitionsToTxnTopic24.over (_version : Int16) (y _t0 : AddPartitionsToTxnTopic24) : AddPartitionsToTxnTopic24 :=
  { Name := y.Name,
    Partitions := y.Partitions }

/-- An array of structures is nil. -/
def AddPartitionsToTxnTopic24.Nulls (_version : Int16) (_y : AddPartitionsToTxnTopic24) : Prop :=
  False

/-- `AddPartitionsToTxnTopic24` in use again. -/
def AddPartitionsToTxnTopic24.reuse : Reuse AddPartitionsToTxnTopic24.type := { over := AddPartitionsToTxnTopic24.over, Nulls := AddPartitionsToTxnTopic24.Nulls }

/-- The same after the first `k` statements of `Decode`. -/
def AddPartitionsToTxnTopic24.overAt (_version : Int16) (k : Nat) (y t0 : AddPartitionsToTxnTopic24) : AddPartitionsToTxnTopic24 :=
  { Name := upto k 0 (y.Name) t0.Name,
    Partitions := upto k 1 (y.Partitions) t0.Partitions }

theorem AddPartitionsToTxnTopic24.sim (v : Int16) (t0 : AddPartitionsToTxnTopic24) : Sim (AddPartitionsToTxnTopic24.overAt v 0 · t0) (AddPartitionsToTxnTopic24.overAt v 2 · t0) (AddPartitionsToTxnTopic24.decode v) :=
  ((.field fun _ _ => rfl) : Sim (AddPartitionsToTxnTopic24.overAt v 0 · t0) (AddPartitionsToTxnTopic24.overAt v 1 · t0) _)
    |>.andThen ((.field fun _ _ => rfl) : Sim (AddPartitionsToTxnTopic24.overAt v 1 · t0) (AddPartitionsToTxnTopic24.overAt v 2 · t0) _)
theorem AddPartitionsToTxnTopic24.reusable : AddPartitionsToTxnTopic24.reuse.Holds AddPartitionsToTxnTopic24.layout where
  decode v t0 d := by
    have h := AddPartitionsToTxnTopic24.sim v t0 {} d
    have e : AddPartitionsToTxnTopic24.overAt v 0 {} t0 = t0 := by first | rfl | (simp only [AddPartitionsToTxnTopic24.overAt, upto_zero, Option.none_or, ite_self] <;> rfl)
    simp only [e] at h
    exact h
  same v y t0 _h := (app_congr rfl rfl)
  stale _ _ h := h.elim

/-- What `t0` becomes where a new `AddPartitionsToTxnRequest` becomes `y`. -/
def AddPartitionsToTxnRequest.over (_version : Int16) (y t0 : AddPartitionsToTxnRequest) : AddPartitionsToTxnRequest :=
  { TransactionalId := y.TransactionalId,
    ProducerId := y.ProducerId,
    ProducerEpoch := y.ProducerEpoch,
    Topics := y.Topics.or t0.Topics }

/-- An array of structures is nil. -/
def AddPartitionsToTxnRequest.Nulls (_version : Int16) (y : AddPartitionsToTxnRequest) : Prop :=
  y.Topics = none

/-- `AddPartitionsToTxnRequest` in use again. -/
def AddPartitionsToTxnRequest.reuse : Reuse AddPartitionsToTxnRequest.type := { over := AddPartitionsToTxnRequest.over, Nulls := AddPartitionsToTxnRequest.Nulls }

/-- The same after the first `k` statements of `Decode`. -/
def AddPartitionsToTxnRequest.overAt (_version : Int16) (k : Nat) (y t0 : AddPartitionsToTxnRequest) : AddPartitionsToTxnRequest :=
  { TransactionalId := upto k 0 (y.TransactionalId) t0.TransactionalId,
    ProducerId := upto k 1 (y.ProducerId) t0.ProducerId,
    ProducerEpoch := upto k 2 (y.ProducerEpoch) t0.ProducerEpoch,
    Topics := y.Topics.or t0.Topics }

theorem AddPartitionsToTxnRequest.sim (v : Int16) (t0 : AddPartitionsToTxnRequest) : Sim (AddPartitionsToTxnRequest.overAt v 0 · t0) (AddPartitionsToTxnRequest.overAt v 4 · t0) (AddPartitionsToTxnRequest.decode v) :=
  ((.field fun _ _ => rfl) : Sim (AddPartitionsToTxnRequest.overAt v 0 · t0) (AddPartitionsToTxnRequest.overAt v 1 · t0) _)
    |>.andThen ((.field fun _ _ => rfl) : Sim (AddPartitionsToTxnRequest.overAt v 1 · t0) (AddPartitionsToTxnRequest.overAt v 2 · t0) _)
    |>.andThen ((.field fun _ _ => rfl) : Sim (AddPartitionsToTxnRequest.overAt v 2 · t0) (AddPartitionsToTxnRequest.overAt v 3 · t0) _)
    |>.andThen ((.structs (fun _ _ => rfl) fun _ => rfl) : Sim (AddPartitionsToTxnRequest.overAt v 3 · t0) (AddPartitionsToTxnRequest.overAt v 4 · t0) _)
theorem AddPartitionsToTxnRequest.reusable : AddPartitionsToTxnRequest.reuse.Holds AddPartitionsToTxnRequest.layout where
  decode v t0 d := by
    have h := AddPartitionsToTxnRequest.sim v t0 {} d
    have e : AddPartitionsToTxnRequest.overAt v 0 {} t0 = t0 := by first | rfl | (simp only [AddPartitionsToTxnRequest.overAt, upto_zero, Option.none_or, ite_self] <;> rfl)
    simp only [e] at h
    exact h
  same v y t0 h := (app_congr (app_congr (app_congr rfl rfl) rfl) (same_or fun hn => h (hn)))
  stale v y h := by
    obtain h := h
    · exact ⟨({ Topics := some [{}] } : AddPartitionsToTxnRequest), (app_ne_right (app_congr (app_congr rfl rfl) rfl) (stale_or h))⟩

/-- What `t0` becomes where a new `AddPartitionsToTxnPartitionResult24` becomes `y`. -/
def AddPartitionsToTxnPartitionResult24.over (_version : Int16) (y _t0 : AddPartitionsToTxnPartitionResult24) : AddPartitionsToTxnPartitionResult24 :=
  { PartitionIndex := y.PartitionIndex,
    ErrorCode := y.ErrorCode }

/-- An array of structures is nil. -/
def AddPartitionsToTxnPartitionResult24.Nulls (_version : Int16) (_y : AddPartitionsToTxnPartitionResult24) : Prop :=
  False

/-- `AddPartitionsToTxnPartitionResult24` in use again. -/
def AddPartitionsToTxnPartitionResult24.reuse : Reuse AddPartitionsToTxnPartitionResult24.type := { over := AddPartitionsToTxnPartitionResult24.over, Nulls := AddPartitionsToTxnPartitionResult24.Nulls }

/-- The same after the first `k` statements of `Decode`. -/
def AddPartitionsToTxnPartitionResult24.overAt (_version : Int16) (k : Nat) (y t0 : AddPartitionsToTxnPartitionResult24) : AddPartitionsToTxnPartitionResult24 :=
  { PartitionIndex := upto k 0 (y.PartitionIndex) t0.PartitionIndex,
    ErrorCode := upto k 1 (y.ErrorCode) t0.ErrorCode }

theorem AddPartitionsToTxnPartitionResult24.sim (v : Int16) (t0 : AddPartitionsToTxnPartitionResult24) : Sim (AddPartitionsToTxnPartitionResult24.overAt v 0 · t0) (AddPartitionsToTxnPartitionResult24.overAt v 2 · t0) (AddPartitionsToTxnPartitionResult24.decode v) :=
  ((.field fun _ _ => rfl) : Sim (AddPartitionsToTxnPartitionResult24.overAt v 0 · t0) (AddPartitionsToTxnPartitionResult24.overAt v 1 · t0) _)
    |>.andThen ((.field fun _ _ => rfl) : Sim (AddPartitionsToTxnPartitionResult24.overAt v 1 · t0) (AddPartitionsToTxnPartitionResult24.overAt v 2 · t0) _)
theorem AddPartitionsToTxnPartitionResult24.reusable : AddPartitionsToTxnPartitionResult24.reuse.Holds AddPartitionsToTxnPartitionResult24.layout where
  decode v t0 d := by
    have h := AddPartitionsToTxnPartitionResult24.sim v t0 {} d
    have e : AddPartitionsToTxnPartitionResult24.overAt v 0 {} t0 = t0 := by first | rfl | (simp only [AddPartitionsToTxnPartitionResult24.overAt, upto_zero, Option.none_or, ite_self] <;> rfl)
    simp only [e] at h
    exact h
  same v y t0 _h := (app_congr rfl rfl)
  stale _ _ h := h.elim

/-- What `t0` becomes where a new `AddPartitionsToTxnTopicResult24` becomes `y`. -/
def AddPartitionsToTxnTopicResult24.over (_version : Int16) (y t0 : AddPartitionsToTxnTopicResult24) : AddPartitionsToTxnTopicResult24 :=
  { Name := y.Name,
    Results := y.Results.or t0.Results }

/-- An array of structures is nil. -/
def AddPartitionsToTxnTopicResult24.Nulls (_version : Int16) (y : AddPartitionsToTxnTopicResult24) : Prop :=
  y.Results = none

/-- `AddPartitionsToTxnTopicResult24` in use again. -/
def AddPartitionsToTxnTopicResult24.reuse : Reuse AddPartitionsToTxnTopicResult24.type := { over := AddPartitionsToTxnTopicResult24.over, Nulls := AddPartitionsToTxnTopicResult24.Nulls }

/-- The same after the first `k` statements of `Decode`. -/
def AddPartitionsToTxnTopicResult24.overAt (_version : Int16) (k : Nat) (y t0 : AddPartitionsToTxnTopicResult24) : AddPartitionsToTxnTopicResult24 :=
  { Name := upto k 0 (y.Name) t0.Name,
    Results := y.Results.or t0.Results }

theorem AddPartitionsToTxnTopicResult24.sim (v : Int16) (t0 : AddPartitionsToTxnTopicResult24) : Sim (AddPartitionsToTxnTopicResult24.overAt v 0 · t0) (AddPartitionsToTxnTopicResult24.overAt v 2 · t0) (AddPartitionsToTxnTopicResult24.decode v) :=
  ((.field fun _ _ => rfl) : Sim (AddPartitionsToTxnTopicResult24.overAt v 0 · t0) (AddPartitionsToTxnTopicResult24.overAt v 1 · t0) _)
    |>.andThen ((.structs (fun _ _ => rfl) fun _ => rfl) : Sim (AddPartitionsToTxnTopicResult24.overAt v 1 · t0) (AddPartitionsToTxnTopicResult24.overAt v 2 · t0) _)
theorem AddPartitionsToTxnTopicResult24.reusable : AddPartitionsToTxnTopicResult24.reuse.Holds AddPartitionsToTxnTopicResult24.layout where
  decode v t0 d := by
    have h := AddPartitionsToTxnTopicResult24.sim v t0 {} d
    have e : AddPartitionsToTxnTopicResult24.overAt v 0 {} t0 = t0 := by first | rfl | (simp only [AddPartitionsToTxnTopicResult24.overAt, upto_zero, Option.none_or, ite_self] <;> rfl)
    simp only [e] at h
    exact h
  same v y t0 h := (app_congr rfl (same_or fun hn => h (hn)))
  stale v y h := by
    obtain h := h
    · exact ⟨({ Results := some [{}] } : AddPartitionsToTxnTopicResult24), (app_ne_right rfl (stale_or h))⟩

/-- What `t0` becomes where a new `AddPartitionsToTxnResponse` becomes `y`. -/
def AddPartitionsToTxnResponse.over (_version : Int16) (y t0 : AddPartitionsToTxnResponse) : AddPartitionsToTxnResponse :=
  { ThrottleTimeMs := y.ThrottleTimeMs,
    Results := y.Results.or t0.Results }

/-- An array of structures is nil. -/
def AddPartitionsToTxnResponse.Nulls (_version : Int16) (y : AddPartitionsToTxnResponse) : Prop :=
  y.Results = none

/-- `AddPartitionsToTxnResponse` in use again. -/
def AddPartitionsToTxnResponse.reuse : Reuse AddPartitionsToTxnResponse.type := { over := AddPartitionsToTxnResponse.over, Nulls := AddPartitionsToTxnResponse.Nulls }

/-- The same after the first `k` statements of `Decode`. -/
def AddPartitionsToTxnResponse.overAt (_version : Int16) (k : Nat) (y t0 : AddPartitionsToTxnResponse) : AddPartitionsToTxnResponse :=
  { ThrottleTimeMs := upto k 0 (y.ThrottleTimeMs) t0.ThrottleTimeMs,
    Results := y.Results.or t0.Results }

theorem AddPartitionsToTxnResponse.sim (v : Int16) (t0 : AddPartitionsToTxnResponse) : Sim (AddPartitionsToTxnResponse.overAt v 0 · t0) (AddPartitionsToTxnResponse.overAt v 2 · t0) (AddPartitionsToTxnResponse.decode v) :=
  ((.field fun _ _ => rfl) : Sim (AddPartitionsToTxnResponse.overAt v 0 · t0) (AddPartitionsToTxnResponse.overAt v 1 · t0) _)
    |>.andThen ((.structs (fun _ _ => rfl) fun _ => rfl) : Sim (AddPartitionsToTxnResponse.overAt v 1 · t0) (AddPartitionsToTxnResponse.overAt v 2 · t0) _)
theorem AddPartitionsToTxnResponse.reusable : AddPartitionsToTxnResponse.reuse.Holds AddPartitionsToTxnResponse.layout where
  decode v t0 d := by
    have h := AddPartitionsToTxnResponse.sim v t0 {} d
    have e : AddPartitionsToTxnResponse.overAt v 0 {} t0 = t0 := by first | rfl | (simp only [AddPartitionsToTxnResponse.overAt, upto_zero, Option.none_or, ite_self] <;> rfl)
    simp only [e] at h
    exact h
  same v y t0 h := (app_congr rfl (same_or fun hn => h (hn)))
  stale v y h := by
    obtain h := h
    · exact ⟨({ Results := some [{}] } : AddPartitionsToTxnResponse), (app_ne_right rfl (stale_or h))⟩

/-- The structures of the AddPartitionsToTxn messages. -/
def reuseAddPartitionsToTxn : List (Σ (M : MsgType) (_ : Layout M), Reuse M) :=
  [⟨AddPartitionsToTxnRequest.type, AddPartitionsToTxnRequest.layout, AddPartitionsToTxnRequest.reuse⟩,
   ⟨AddPartitionsToTxnTopic24.type, AddPartitionsToTxnTopic24.layout, AddPartitionsToTxnTopic24.reuse⟩,
   ⟨AddPartitionsToTxnResponse.type, AddPartitionsToTxnResponse.layout, AddPartitionsToTxnResponse.reuse⟩,
   ⟨AddPartitionsToTxnTopicResult24.type, AddPartitionsToTxnTopicResult24.layout, AddPartitionsToTxnTopicResult24.reuse⟩,
   ⟨AddPartitionsToTxnPartitionResult24.type, AddPartitionsToTxnPartitionResult24.layout, AddPartitionsToTxnPartitionResult24.reuse⟩]
theorem reuseAddPartitionsToTxn_holds : ∀ p ∈ reuseAddPartitionsToTxn, p.2.2.Holds p.2.1 := by
  unfold reuseAddPartitionsToTxn
  simp only [List.forall_mem_cons]
  exact ⟨AddPartitionsToTxnRequest.reusable, AddPartitionsToTxnTopic24.reusable, AddPartitionsToTxnResponse.reusable, AddPartitionsToTxnTopicResult24.reusable, AddPartitionsToTxnPartitionResult24.reusable, fun _ h => absurd h (by simp)⟩

end Kafka.Msg
