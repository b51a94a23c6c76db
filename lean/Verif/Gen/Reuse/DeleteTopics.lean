import Verif.Message.Reuse
import Verif.Gen.Spec.DeleteTopics
/-!
Generated by tools/gen_messages.py: decoding into DeleteTopics messages used before.
-/
set_option linter.unusedSimpArgs false
set_option linter.unusedVariables false
namespace Kafka.Msg

/-- What `t0` becomes where a new `DeleteTopicsRequest` becomes `y`. -/
def DeleteTopicsRequest.over (_version : Int16) (y _t0 : DeleteTopicsRequest) : DeleteTopicsRequest :=
  { TopicNames := y.TopicNames,
    TimeoutMs := y.TimeoutMs }

/-- An array of structures is nil. -/
def DeleteTopicsRequest.Nulls (_version : Int16) (_y : DeleteTopicsRequest) : Prop :=
  False

/-- `DeleteTopicsRequest` in use again. -/
def DeleteTopicsRequest.reuse : Reuse DeleteTopicsRequest.type := { over := DeleteTopicsRequest.over, Nulls := DeleteTopicsRequest.Nulls }

/-- The same after the first `k` statements of `Decode`. -/
def DeleteTopicsRequest.overAt (_version : Int16) (k : Nat) (y t0 : DeleteTopicsRequest) : DeleteTopicsRequest :=
  { TopicNames := upto k 0 (y.TopicNames) t0.TopicNames,
    TimeoutMs := upto k 1 (y.TimeoutMs) t0.TimeoutMs }

theorem DeleteTopicsRequest.sim (v : Int16) (t0 : DeleteTopicsRequest) : Sim (DeleteTopicsRequest.overAt v 0 · t0) (DeleteTopicsRequest.overAt v 2 · t0) (DeleteTopicsRequest.decode v) :=
  ((.field fun _ _ => rfl) : Sim (DeleteTopicsRequest.overAt v 0 · t0) (DeleteTopicsRequest.overAt v 1 · t0) _)
    |>.andThen ((.field fun _ _ => rfl) : Sim (DeleteTopicsRequest.overAt v 1 · t0) (DeleteTopicsRequest.overAt v 2 · t0) _)
theorem DeleteTopicsRequest.reusable : DeleteTopicsRequest.reuse.Holds DeleteTopicsRequest.layout where
  decode v t0 d := by
    have h := DeleteTopicsRequest.sim v t0 {} d
    have e : DeleteTopicsRequest.overAt v 0 {} t0 = t0 := by first | rfl | (simp only [DeleteTopicsRequest.overAt, upto_zero, Option.none_or, ite_self] <;> rfl)
    simp only [e] at h
    exact h
  same v y t0 _h := (app_congr rfl rfl)
  stale _ _ h := h.elim

/-- What `t0` becomes where a new `DeletableTopicResult20` becomes `y`. -/
def DeletableTopicResult20.over (_version : Int16) (y _t0 : DeletableTopicResult20) : DeletableTopicResult20 :=
  { Name := y.Name,
    ErrorCode := y.ErrorCode }

/-- An array of structures is nil. -/
def DeletableTopicResult20.Nulls (_version : Int16) (_y : DeletableTopicResult20) : Prop :=
  False

/-- `DeletableTopicResult20` in use again. -/
def DeletableTopicResult20.reuse : Reuse DeletableTopicResult20.type := { over := DeletableTopicResult20.over, Nulls := DeletableTopicResult20.Nulls }

/-- The same after the first `k` statements of `Decode`. -/
def DeletableTopicResult20.overAt (_version : Int16) (k : Nat) (y t0 : DeletableTopicResult20) : DeletableTopicResult20 :=
  { Name := upto k 0 (y.Name) t0.Name,
    ErrorCode := upto k 1 (y.ErrorCode) t0.ErrorCode }

theorem DeletableTopicResult20.sim (v : Int16) (t0 : DeletableTopicResult20) : Sim (DeletableTopicResult20.overAt v 0 · t0) (DeletableTopicResult20.overAt v 2 · t0) (DeletableTopicResult20.decode v) :=
  ((.field fun _ _ => rfl) : Sim (DeletableTopicResult20.overAt v 0 · t0) (DeletableTopicResult20.overAt v 1 · t0) _)
    |>.andThen ((.field fun _ _ => rfl) : Sim (DeletableTopicResult20.overAt v 1 · t0) (DeletableTopicResult20.overAt v 2 · t0) _)
theorem DeletableTopicResult20.reusable : DeletableTopicResult20.reuse.Holds DeletableTopicResult20.layout where
  decode v t0 d := by
    have h := DeletableTopicResult20.sim v t0 {} d
    have e : DeletableTopicResult20.overAt v 0 {} t0 = t0 := by first | rfl | (simp only [DeletableTopicResult20.overAt, upto_zero, Option.none_or, ite_self] <;> rfl)
    simp only [e] at h
    exact h
  same v y t0 _h := (app_congr rfl rfl)
  stale _ _ h := h.elim

/-- What `t0` becomes where a new `DeleteTopicsResponse` becomes `y`. -/
def DeleteTopicsResponse.over (version : Int16) (y t0 : DeleteTopicsResponse) : DeleteTopicsResponse :=
  { ThrottleTimeMs := if version ≥ 1 then y.ThrottleTimeMs else t0.ThrottleTimeMs,
    Responses := y.Responses.or t0.Responses }

/-- An array of structures is nil. -/
def DeleteTopicsResponse.Nulls (_version : Int16) (y : DeleteTopicsResponse) : Prop :=
  y.Responses = none

/-- `DeleteTopicsResponse` in use again. -/
def DeleteTopicsResponse.reuse : Reuse DeleteTopicsResponse.type := { over := DeleteTopicsResponse.over, Nulls := DeleteTopicsResponse.Nulls }

/-- The same after the first `k` statements of `Decode`. -/
def DeleteTopicsResponse.overAt (version : Int16) (k : Nat) (y t0 : DeleteTopicsResponse) : DeleteTopicsResponse :=
  { ThrottleTimeMs := upto k 0 (if version ≥ 1 then y.ThrottleTimeMs else t0.ThrottleTimeMs) t0.ThrottleTimeMs,
    Responses := y.Responses.or t0.Responses }

theorem DeleteTopicsResponse.sim (v : Int16) (t0 : DeleteTopicsResponse) : Sim (DeleteTopicsResponse.overAt v 0 · t0) (DeleteTopicsResponse.overAt v 2 · t0) (DeleteTopicsResponse.decode v) :=
  ((.onlyIf (fun hc => .field fun _ _ => by simp only [DeleteTopicsResponse.overAt, if_pos hc]; rfl) fun hc _ => by simp only [DeleteTopicsResponse.overAt, if_neg hc]; rfl) : Sim (DeleteTopicsResponse.overAt v 0 · t0) (DeleteTopicsResponse.overAt v 1 · t0) _)
    |>.andThen ((.structs (fun _ _ => rfl) fun _ => rfl) : Sim (DeleteTopicsResponse.overAt v 1 · t0) (DeleteTopicsResponse.overAt v 2 · t0) _)
theorem DeleteTopicsResponse.reusable : DeleteTopicsResponse.reuse.Holds DeleteTopicsResponse.layout where
  decode v t0 d := by
    have h := DeleteTopicsResponse.sim v t0 {} d
    have e : DeleteTopicsResponse.overAt v 0 {} t0 = t0 := by first | rfl | (simp only [DeleteTopicsResponse.overAt, upto_zero, Option.none_or, ite_self] <;> rfl)
    simp only [e] at h
    exact h
  same v y t0 h := (app_congr (again_opt Wire.int32 y.ThrottleTimeMs t0.ThrottleTimeMs) (same_or fun hn => h (hn)))
  stale v y h := by
    obtain h := h
    · exact ⟨({ Responses := some [{}] } : DeleteTopicsResponse), (app_ne_right (again_opt Wire.int32 y.ThrottleTimeMs 0) (stale_or h))⟩

/-- The structures of the DeleteTopics messages. -/
def reuseDeleteTopics : List (Σ (M : MsgType) (_ : Layout M), Reuse M) :=
  [⟨DeleteTopicsRequest.type, DeleteTopicsRequest.layout, DeleteTopicsRequest.reuse⟩,
   ⟨DeleteTopicsResponse.type, DeleteTopicsResponse.layout, DeleteTopicsResponse.reuse⟩,
   ⟨DeletableTopicResult20.type, DeletableTopicResult20.layout, DeletableTopicResult20.reuse⟩]
theorem reuseDeleteTopics_holds : ∀ p ∈ reuseDeleteTopics, p.2.2.Holds p.2.1 := by
  unfold reuseDeleteTopics
  simp only [List.forall_mem_cons]
  exact ⟨DeleteTopicsRequest.reusable, DeleteTopicsResponse.reusable, DeletableTopicResult20.reusable, fun _ h => absurd h (by simp)⟩

end Kafka.Msg
