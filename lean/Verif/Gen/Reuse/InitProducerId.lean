import Verif.Message.Reuse
import Verif.Gen.Spec.InitProducerId
/-!
Generated by tools/gen_messages.py: decoding into InitProducerId messages used before.
-/
set_option linter.unusedSimpArgs false
set_option linter.unusedVariables false
namespace Kafka.Msg

/-- What `t0` becomes where a new `InitProducerIdRequest` becomes `y`. -/
def InitProducerIdRequest.over (_version : Int16) (y _t0 : InitProducerIdRequest) : InitProducerIdRequest :=
  { TransactionalId := y.TransactionalId,
    TransactionTimeoutMs := y.TransactionTimeoutMs }

/-- An array of structures is nil. -/
def InitProducerIdRequest.Nulls (_version : Int16) (_y : InitProducerIdRequest) : Prop :=
  False

/-- `InitProducerIdRequest` in use again. -/
def InitProducerIdRequest.reuse : Reuse InitProducerIdRequest.type := { over := InitProducerIdRequest.over, Nulls := InitProducerIdRequest.Nulls }

/-- The same after the first `k` statements of `Decode`. -/
def InitProducerIdRequest.overAt (_version : Int16) (k : Nat) (y t0 : InitProducerIdRequest) : InitProducerIdRequest :=
  { TransactionalId := upto k 0 (y.TransactionalId) t0.TransactionalId,
    TransactionTimeoutMs := upto k 1 (y.TransactionTimeoutMs) t0.TransactionTimeoutMs }

theorem InitProducerIdRequest.sim (v : Int16) (t0 : InitProducerIdRequest) : Sim (InitProducerIdRequest.overAt v 0 · t0) (InitProducerIdRequest.overAt v 2 · t0) (InitProducerIdRequest.decode v) :=
  ((.field fun _ _ => rfl) : Sim (InitProducerIdRequest.overAt v 0 · t0) (InitProducerIdRequest.overAt v 1 · t0) _)
    |>.andThen ((.field fun _ _ => rfl) : Sim (InitProducerIdRequest.overAt v 1 · t0) (InitProducerIdRequest.overAt v 2 · t0) _)
theorem InitProducerIdRequest.reusable : InitProducerIdRequest.reuse.Holds InitProducerIdRequest.layout where
  decode v t0 d := by
    have h := InitProducerIdRequest.sim v t0 {} d
    have e : InitProducerIdRequest.overAt v 0 {} t0 = t0 := by first | rfl | (simp only [InitProducerIdRequest.overAt, upto_zero, Option.none_or, ite_self] <;> rfl)
    simp only [e] at h
    exact h
  same v y t0 _h := (app_congr rfl rfl)
  stale _ _ h := h.elim

/-- What `t0` becomes where a new `InitProducerIdResponse` becomes `y`. -/
def InitProducerIdResponse.over (_version : Int16) (y _t0 : InitProducerIdResponse) : InitProducerIdResponse :=
  { ThrottleTimeMs := y.ThrottleTimeMs,
    ErrorCode := y.ErrorCode,
    ProducerId := y.ProducerId,
    ProducerEpoch := y.ProducerEpoch }

/-- An array of structures is nil. -/
def InitProducerIdResponse.Nulls (_version : Int16) (_y : InitProducerIdResponse) : Prop :=
  False

/-- `InitProducerIdResponse` in use again. -/
def InitProducerIdResponse.reuse : Reuse InitProducerIdResponse.type := { over := InitProducerIdResponse.over, Nulls := InitProducerIdResponse.Nulls }

/-- The same after the first `k` statements of `Decode`. -/
def InitProducerIdResponse.overAt (_version : Int16) (k : Nat) (y t0 : InitProducerIdResponse) : InitProducerIdResponse :=
  { ThrottleTimeMs := upto k 0 (y.ThrottleTimeMs) t0.ThrottleTimeMs,
    ErrorCode := upto k 1 (y.ErrorCode) t0.ErrorCode,
    ProducerId := upto k 2 (y.ProducerId) t0.ProducerId,
    ProducerEpoch := upto k 3 (y.ProducerEpoch) t0.ProducerEpoch }

theorem InitProducerIdResponse.sim (v : Int16) (t0 : InitProducerIdResponse) : Sim (InitProducerIdResponse.overAt v 0 · t0) (InitProducerIdResponse.overAt v 4 · t0) (InitProducerIdResponse.decode v) :=
  ((.field fun _ _ => rfl) : Sim (InitProducerIdResponse.overAt v 0 · t0) (InitProducerIdResponse.overAt v 1 · t0) _)
    |>.andThen ((.field fun _ _ => rfl) : Sim (InitProducerIdResponse.overAt v 1 · t0) (InitProducerIdResponse.overAt v 2 · t0) _)
    |>.andThen ((.field fun _ _ => rfl) : Sim (InitProducerIdResponse.overAt v 2 · t0) (InitProducerIdResponse.overAt v 3 · t0) _)
    |>.andThen ((.field fun _ _ => rfl) : Sim (InitProducerIdResponse.overAt v 3 · t0) (InitProducerIdResponse.overAt v 4 · t0) _)
theorem InitProducerIdResponse.reusable : InitProducerIdResponse.reuse.Holds InitProducerIdResponse.layout where
  decode v t0 d := by
    have h := InitProducerIdResponse.sim v t0 {} d
    have e : InitProducerIdResponse.overAt v 0 {} t0 = t0 := by first | rfl | (simp only [InitProducerIdResponse.overAt, upto_zero, Option.none_or, ite_self] <;> rfl)
    simp only [e] at h
    exact h
  same v y t0 _h := (app_congr (app_congr (app_congr rfl rfl) rfl) rfl)
  stale _ _ h := h.elim

/-- The structures of the InitProducerId messages. -/
def reuseInitProducerId : List (Σ (M : MsgType) (_ : Layout M), Reuse M) :=
  [⟨InitProducerIdRequest.type, InitProducerIdRequest.layout, InitProducerIdRequest.reuse⟩,
   ⟨InitProducerIdResponse.type, InitProducerIdResponse.layout, InitProducerIdResponse.reuse⟩]
theorem reuseInitProducerId_holds : ∀ p ∈ reuseInitProducerId, p.2.2.Holds p.2.1 := by
  unfold reuseInitProducerId
  simp only [List.forall_mem_cons]
  exact ⟨InitProducerIdRequest.reusable, InitProducerIdResponse.reusable, fun _ h => absurd h (by simp)⟩

end Kafka.Msg
