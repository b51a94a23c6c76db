import Verif.Message.Reuse
import Verif.Gen.Spec.AddOffsetsToTxn
/-!
Generated by tools/gen_messages.py: decoding into AddOffsetsToTxn messages used before.
-/
set_option linter.unusedSimpArgs false
set_option linter.unusedVariables false
namespace Kafka.Msg

/-- What `t0` becomes where a new `AddOffsetsToTxnRequest` becomes `y`. -/
def AddOffsetsToTxnRequest.over (_version : Int16) (y _t0 : AddOffsetsToTxnRequest) : AddOffsetsToTxnRequest :=
  { TransactionalId := y.TransactionalId,
    ProducerId := y.ProducerId,
    ProducerEpoch := y.ProducerEpoch,
    GroupId := y.GroupId }

/-- An array of structures is nil. -/
def AddOffsetsToTxnRequest.Nulls (_version : Int16) (_y : AddOffsetsToTxnRequest) : Prop :=
  False

/-- `AddOffsetsToTxnRequest` in use again. -/
def AddOffsetsToTxnRequest.reuse : Reuse AddOffsetsToTxnRequest.type := { over := AddOffsetsToTxnRequest.over, Nulls := AddOffsetsToTxnRequest.Nulls }

/-- The same after the first `k` statements of `Decode`. -/
def AddOffsetsToTxnRequest.overAt (_version : Int16) (k : Nat) (y t0 : AddOffsetsToTxnRequest) : AddOffsetsToTxnRequest :=
  { TransactionalId := upto k 0 (y.TransactionalId) t0.TransactionalId,
    ProducerId := upto k 1 (y.ProducerId) t0.ProducerId,
    ProducerEpoch := upto k 2 (y.ProducerEpoch) t0.ProducerEpoch,
    GroupId := upto k 3 (y.GroupId) t0.GroupId }

theorem AddOffsetsToTxnRequest.sim (v : Int16) (t0 : AddOffsetsToTxnRequest) : Sim (AddOffsetsToTxnRequest.overAt v 0 · t0) (AddOffsetsToTxnRequest.overAt v 4 · t0) (AddOffsetsToTxnRequest.decode v) :=
  ((.field fun _ _ => rfl) : Sim (AddOffsetsToTxnRequest.overAt v 0 · t0) (AddOffsetsToTxnRequest.overAt v 1 · t0) _)
    |>.andThen ((.field fun _ _ => rfl) : Sim (AddOffsetsToTxnRequest.overAt v 1 · t0) (AddOffsetsToTxnRequest.overAt v 2 · t0) _)
    |>.andThen ((.field fun _ _ => rfl) : Sim (AddOffsetsToTxnRequest.overAt v 2 · t0) (AddOffsetsToTxnRequest.overAt v 3 · t0) _)
    |>.andThen ((.field fun _ _ => rfl) : Sim (AddOffsetsToTxnRequest.overAt v 3 · t0) (AddOffsetsToTxnRequest.overAt v 4 · t0) _)
theorem AddOffsetsToTxnRequest.reusable : AddOffsetsToTxnRequest.reuse.Holds AddOffsetsToTxnRequest.layout where
  decode v t0 d := by
    have h := AddOffsetsToTxnRequest.sim v t0 {} d
    have e : AddOffsetsToTxnRequest.overAt v 0 {} t0 = t0 := by first | rfl | (simp only [AddOffsetsToTxnRequest.overAt, upto_zero, Option.none_or, ite_self] <;> rfl)
    simp only [e] at h
    exact h
  same v y t0 _h := (app_congr (app_congr (app_congr rfl rfl) rfl) rfl)
  stale _ _ h := h.elim

/-- What `t0` becomes where a new `AddOffsetsToTxnResponse` becomes `y`. -/
def AddOffsetsToTxnResponse.over (_version : Int16) (y _t0 : AddOffsetsToTxnResponse) : AddOffsetsToTxnResponse :=
  { ThrottleTimeMs := y.ThrottleTimeMs,
    ErrorCode := y.ErrorCode }

/-- An array of structures is nil. -/
def AddOffsetsToTxnResponse.Nulls (_version : Int16) (_y : AddOffsetsToTxnResponse) : Prop :=
  False

/-- `AddOffsetsToTxnResponse` in use again. -/
def AddOffsetsToTxnResponse.reuse : Reuse AddOffsetsToTxnResponse.type := { over := AddOffsetsToTxnResponse.over, Nulls := AddOffsetsToTxnResponse.Nulls }

/-- The same after the first `k` statements of `Decode`. -/
def AddOffsetsToTxnResponse.overAt (_version : Int16) (k : Nat) (y t0 : AddOffsetsToTxnResponse) : AddOffsetsToTxnResponse :=
  { ThrottleTimeMs := upto k 0 (y.ThrottleTimeMs) t0.ThrottleTimeMs,
    ErrorCode := upto k 1 (y.ErrorCode) t0.ErrorCode }

theorem AddOffsetsToTxnResponse.sim (v : Int16) (t0 : AddOffsetsToTxnResponse) : Sim (AddOffsetsToTxnResponse.overAt v 0 · t0) (AddOffsetsToTxnResponse.overAt v 2 · t0) (AddOffsetsToTxnResponse.decode v) :=
  ((.field fun _ _ => rfl) : Sim (AddOffsetsToTxnResponse.overAt v 0 · t0) (AddOffsetsToTxnResponse.overAt v 1 · t0) _)
    |>.andThen ((.field fun _ _ => rfl) : Sim (AddOffsetsToTxnResponse.overAt v 1 · t0) (AddOffsetsToTxnResponse.overAt v 2 · t0) _)
theorem AddOffsetsToTxnResponse.reusable : AddOffsetsToTxnResponse.reuse.Holds AddOffsetsToTxnResponse.layout where
  decode v t0 d := by
    have h := AddOffsetsToTxnResponse.sim v t0 {} d
    have e : AddOffsetsToTxnResponse.overAt v 0 {} t0 = t0 := by first | rfl | (simp only [AddOffsetsToTxnResponse.overAt, upto_zero, Option.none_or, ite_self] <;> rfl)
    simp only [e] at h
    exact h
  same v y t0 _h := (app_congr rfl rfl)
  stale _ _ h := h.elim

/-- The structures of the AddOffsetsToTxn messages. -/
def reuseAddOffsetsToTxn : List (Σ (M : MsgType) (_ : Layout M), Reuse M) :=
  [⟨AddOffsetsToTxnRequest.type, AddOffsetsToTxnRequest.layout, AddOffsetsToTxnRequest.reuse⟩,
   ⟨AddOffsetsToTxnResponse.type, AddOffsetsToTxnResponse.layout, AddOffsetsToTxnResponse.reuse⟩]
theorem reuseAddOffsetsToTxn_holds : ∀ p ∈ reuseAddOffsetsToTxn, p.2.2.Holds p.2.1 := by
  unfold reuseAddOffsetsToTxn
  simp only [List.forall_mem_cons]
  exact ⟨AddOffsetsToTxnRequest.reusable, AddOffsetsToTxnResponse.reusable, fun _ h => absurd h (by simp)⟩

end Kafka.Msg
