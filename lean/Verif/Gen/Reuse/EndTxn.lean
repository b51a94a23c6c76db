import Verif.Message.Reuse
import Verif.Gen.Spec.EndTxn
/-!
Generated by tools/gen_messages.py: decoding into EndTxn messages used before.
-/
set_option linter.unusedSimpArgs false
set_option linter.unusedVariables false
namespace Kafka.Msg

/-- What `t0` becomes where a new `EndTxnRequest` becomes `y`. -/
def EndTxnRequest.over (_version : Int16) (y _t0 : EndTxnRequest) : EndTxnRequest :=
  { TransactionalId := y.TransactionalId,
    ProducerId := y.ProducerId,
    ProducerEpoch := y.ProducerEpoch,
    Committed := y.Committed }

/-- An array of structures is nil. -/
def EndTxnRequest.Nulls (_version : Int16) (_y : EndTxnRequest) : Prop :=
  False

/-- `EndTxnRequest` in use again. -/
def EndTxnRequest.reuse : Reuse EndTxnRequest.type := { over := EndTxnRequest.over, Nulls := EndTxnRequest.Nulls }

/-- The same after the first `k` statements of `Decode`. -/
def EndTxnRequest.overAt (_version : Int16) (k : Nat) (y t0 : EndTxnRequest) : EndTxnRequest :=
  { TransactionalId := upto k 0 (y.TransactionalId) t0.TransactionalId,
    ProducerId := upto k 1 (y.ProducerId) t0.ProducerId,
    ProducerEpoch := upto k 2 (y.ProducerEpoch) t0.ProducerEpoch,
    Committed := upto k 3 (y.Committed) t0.Committed }

theorem EndTxnRequest.sim (v : Int16) (t0 : EndTxnRequest) : Sim (EndTxnRequest.overAt v 0 · t0) (EndTxnRequest.overAt v 4 · t0) (EndTxnRequest.decode v) :=
  ((.field fun _ _ => rfl) : Sim (EndTxnRequest.overAt v 0 · t0) (EndTxnRequest.overAt v 1 · t0) _)
    |>.andThen ((.field fun _ _ => rfl) : Sim (EndTxnRequest.overAt v 1 · t0) (EndTxnRequest.overAt v 2 · t0) _)
    |>.andThen ((.field fun _ _ => rfl) : Sim (EndTxnRequest.overAt v 2 · t0) (EndTxnRequest.overAt v 3 · t0) _)
    |>.andThen ((.field fun _ _ => rfl) : Sim (EndTxnRequest.overAt v 3 · t0) (EndTxnRequest.overAt v 4 · t0) _)
theorem EndTxnRequest.reusable : EndTxnRequest.reuse.Holds EndTxnRequest.layout where
  decode v t0 d := by
    have h := EndTxnRequest.sim v t0 {} d
    have e : EndTxnRequest.overAt v 0 {} t0 = t0 := by first | rfl | (simp only [EndTxnRequest.overAt, upto_zero, Option.none_or, ite_self] <;> rfl)
    simp only [e] at h
    exact h
  same v y t0 _h := (app_congr (app_congr (app_congr rfl rfl) rfl) rfl)
  stale _ _ h := h.elim

/-- What `t0` becomes where a new `EndTxnResponse` becomes `y`. -/
def EndTxnResponse.over (_version : Int16) (y _t0 : EndTxnResponse) : EndTxnResponse :=
  { ThrottleTimeMs := y.ThrottleTimeMs,
    ErrorCode := y.ErrorCode }

/-- An array of structures is nil. -/
def EndTxnResponse.Nulls (_version : Int16) (_y : EndTxnResponse) : Prop :=
  False

/-- `EndTxnResponse` in use again. -/
def EndTxnResponse.reuse : Reuse EndTxnResponse.type := { over := EndTxnResponse.over, Nulls := EndTxnResponse.Nulls }

/-- The same after the first `k` statements of `Decode`. -/
def EndTxnResponse.overAt (_version : Int16) (k : Nat) (y t0 : EndTxnResponse) : EndTxnResponse :=
  { ThrottleTimeMs := upto k 0 (y.ThrottleTimeMs) t0.ThrottleTimeMs,
    ErrorCode := upto k 1 (y.ErrorCode) t0.ErrorCode }

theorem EndTxnResponse.sim (v : Int16) (t0 : EndTxnResponse) : Sim (EndTxnResponse.overAt v 0 · t0) (EndTxnResponse.overAt v 2 · t0) (EndTxnResponse.decode v) :=
  ((.field fun _ _ => rfl) : Sim (EndTxnResponse.overAt v 0 · t0) (EndTxnResponse.overAt v 1 · t0) _)
    |>.andThen ((.field fun _ _ => rfl) : Sim (EndTxnResponse.overAt v 1 · t0) (EndTxnResponse.overAt v 2 · t0) _)
theorem EndTxnResponse.reusable : EndTxnResponse.reuse.Holds EndTxnResponse.layout where
  decode v t0 d := by
    have h := EndTxnResponse.sim v t0 {} d
    have e : EndTxnResponse.overAt v 0 {} t0 = t0 := by first | rfl | (simp only [EndTxnResponse.overAt, upto_zero, Option.none_or, ite_self] <;> rfl)
    simp only [e] at h
    exact h
  same v y t0 _h := (app_congr rfl rfl)
  stale _ _ h := h.elim

/-- The structures of the EndTxn messages. -/
def reuseEndTxn : List (Σ (M : MsgType) (_ : Layout M), Reuse M) :=
  [⟨EndTxnRequest.type, EndTxnRequest.layout, EndTxnRequest.reuse⟩,
   ⟨EndTxnResponse.type, EndTxnResponse.layout, EndTxnResponse.reuse⟩]
theorem reuseEndTxn_holds : ∀ p ∈ reuseEndTxn, p.2.2.Holds p.2.1 := by
  unfold reuseEndTxn
  simp only [List.forall_mem_cons]
  exact ⟨EndTxnRequest.reusable, EndTxnResponse.reusable, fun _ h => absurd h (by simp)⟩

end Kafka.Msg
