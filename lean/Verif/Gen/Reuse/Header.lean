import Verif.Message.Reuse
import Verif.Gen.Spec.Header
/-!
Generated by tools/gen_messages.py: decoding into Header messages used before.
-/
set_option linter.unusedSimpArgs false
set_option linter.unusedVariables false
namespace Kafka.Msg

/-- What `t0` becomes where a new `RequestHeader` becomes `y`. -/
def RequestHeader.over (version : Int16) (y t0 : RequestHeader) : RequestHeader :=
  { RequestApiKey := y.RequestApiKey,
    RequestApiVersion := y.RequestApiVersion,
    CorrelationId := y.CorrelationId,
    ClientId := if version ≥ 1 then y.ClientId else t0.ClientId }

/-- An array of structures is nil. -/
def RequestHeader.Nulls (_version : Int16) (_y : RequestHeader) : Prop :=
  False

/-- `RequestHeader` in use again. -/
def RequestHeader.reuse : Reuse RequestHeader.type := { over := RequestHeader.over, Nulls := RequestHeader.Nulls }

/-- The same after the first `k` statements of `Decode`. -/
def RequestHeader.overAt (version : Int16) (k : Nat) (y t0 : RequestHeader) : RequestHeader :=
  { RequestApiKey := upto k 0 (y.RequestApiKey) t0.RequestApiKey,
    RequestApiVersion := upto k 1 (y.RequestApiVersion) t0.RequestApiVersion,
    CorrelationId := upto k 2 (y.CorrelationId) t0.CorrelationId,
    ClientId := upto k 3 (if version ≥ 1 then y.ClientId else t0.ClientId) t0.ClientId }

theorem RequestHeader.sim (v : Int16) (t0 : RequestHeader) : Sim (RequestHeader.overAt v 0 · t0) (RequestHeader.overAt v 4 · t0) (RequestHeader.decode v) :=
  ((.field fun _ _ => rfl) : Sim (RequestHeader.overAt v 0 · t0) (RequestHeader.overAt v 1 · t0) _)
    |>.andThen ((.field fun _ _ => rfl) : Sim (RequestHeader.overAt v 1 · t0) (RequestHeader.overAt v 2 · t0) _)
    |>.andThen ((.field fun _ _ => rfl) : Sim (RequestHeader.overAt v 2 · t0) (RequestHeader.overAt v 3 · t0) _)
    |>.andThen ((.onlyIf (fun hc => .field fun _ _ => by simp only [RequestHeader.overAt, if_pos hc]; rfl) fun hc _ => by simp only [RequestHeader.overAt, if_neg hc]; rfl) : Sim (RequestHeader.overAt v 3 · t0) (RequestHeader.overAt v 4 · t0) _)
theorem RequestHeader.reusable : RequestHeader.reuse.Holds RequestHeader.layout where
  decode v t0 d := by
    have h := RequestHeader.sim v t0 {} d
    have e : RequestHeader.overAt v 0 {} t0 = t0 := by first | rfl | (simp only [RequestHeader.overAt, upto_zero, Option.none_or, ite_self] <;> rfl)
    simp only [e] at h
    exact h
  same v y t0 _h := (app_congr (app_congr (app_congr rfl rfl) rfl) (again_opt Wire.string y.ClientId t0.ClientId))
  stale _ _ h := h.elim

/-- What `t0` becomes where a new `ResponseHeader` becomes `y`. -/
def ResponseHeader.over (_version : Int16) (y _t0 : ResponseHeader) : ResponseHeader :=
  { CorrelationId := y.CorrelationId }

/-- An array of structures is nil. -/
def ResponseHeader.Nulls (_version : Int16) (_y : ResponseHeader) : Prop :=
  False

/-- `ResponseHeader` in use again. -/
def ResponseHeader.reuse : Reuse ResponseHeader.type := { over := ResponseHeader.over, Nulls := ResponseHeader.Nulls }

/-- The same after the first `k` statements of `Decode`. -/
def ResponseHeader.overAt (_version : Int16) (k : Nat) (y t0 : ResponseHeader) : ResponseHeader :=
  { CorrelationId := upto k 0 (y.CorrelationId) t0.CorrelationId }

theorem ResponseHeader.sim (v : Int16) (t0 : ResponseHeader) : Sim (ResponseHeader.overAt v 0 · t0) (ResponseHeader.overAt v 1 · t0) (ResponseHeader.decode v) :=
  ((.field fun _ _ => rfl) : Sim (ResponseHeader.overAt v 0 · t0) (ResponseHeader.overAt v 1 · t0) _)
theorem ResponseHeader.reusable : ResponseHeader.reuse.Holds ResponseHeader.layout where
  decode v t0 d := by
    have h := ResponseHeader.sim v t0 {} d
    have e : ResponseHeader.overAt v 0 {} t0 = t0 := by first | rfl | (simp only [ResponseHeader.overAt, upto_zero, Option.none_or, ite_self] <;> rfl)
    simp only [e] at h
    exact h
  same v y t0 _h := rfl
  stale _ _ h := h.elim

/-- The structures of the Header messages. -/
def reuseHeader : List (Σ (M : MsgType) (_ : Layout M), Reuse M) :=
  [⟨RequestHeader.type, RequestHeader.layout, RequestHeader.reuse⟩,
   ⟨ResponseHeader.type, ResponseHeader.layout, ResponseHeader.reuse⟩]
theorem reuseHeader_holds : ∀ p ∈ reuseHeader, p.2.2.Holds p.2.1 := by
  unfold reuseHeader
  simp only [List.forall_mem_cons]
  exact ⟨RequestHeader.reusable, ResponseHeader.reusable, fun _ h => absurd h (by simp)⟩

end Kafka.Msg
