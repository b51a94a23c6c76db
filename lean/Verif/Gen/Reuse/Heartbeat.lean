import Verif.Message.Reuse
import Verif.Gen.Spec.Heartbeat
/-!
Generated by tools/gen_messages.py: decoding into Heartbeat messages used before.
-/
set_option linter.unusedSimpArgs false
set_option linter.unusedVariables false
namespace Kafka.Msg

/-- What `t0` becomes where a new `HeartbeatRequest` becomes `y`. -/
def HeartbeatRequest.over (version : Int16) (y t0 : HeartbeatRequest) : HeartbeatRequest :=
  { GroupId := y.GroupId,
    GenerationId := y.GenerationId,
    MemberId := y.MemberId,
    GroupInstanceId := if version ≥ 3 then y.GroupInstanceId else t0.GroupInstanceId }

/-- An array of structures is nil. -/
def HeartbeatRequest.Nulls (_version : Int16) (_y : HeartbeatRequest) : Prop :=
  False

/-- `HeartbeatRequest` in use again. -/
def HeartbeatRequest.reuse : Reuse HeartbeatRequest.type := { over := HeartbeatRequest.over, Nulls := HeartbeatRequest.Nulls }

/-- The same after the first `k` statements of `Decode`. -/
def HeartbeatRequest.overAt (version : Int16) (k : Nat) (y t0 : HeartbeatRequest) : HeartbeatRequest :=
  { GroupId := upto k 0 (y.GroupId) t0.GroupId,
    GenerationId := upto k 1 (y.GenerationId) t0.GenerationId,
    MemberId := upto k 2 (y.MemberId) t0.MemberId,
    GroupInstanceId := upto k 3 (if version ≥ 3 then y.GroupInstanceId else t0.GroupInstanceId) t0.GroupInstanceId }

theorem HeartbeatRequest.sim (v : Int16) (t0 : HeartbeatRequest) : Sim (HeartbeatRequest.overAt v 0 · t0) (HeartbeatRequest.overAt v 4 · t0) (HeartbeatRequest.decode v) :=
  ((.field fun _ _ => rfl) : Sim (HeartbeatRequest.overAt v 0 · t0) (HeartbeatRequest.overAt v 1 · t0) _)
    |>.andThen ((.field fun _ _ => rfl) : Sim (HeartbeatRequest.overAt v 1 · t0) (HeartbeatRequest.overAt v 2 · t0) _)
    |>.andThen ((.field fun _ _ => rfl) : Sim (HeartbeatRequest.overAt v 2 · t0) (HeartbeatRequest.overAt v 3 · t0) _)
    |>.andThen ((.onlyIf (fun hc => .field fun _ _ => by simp only [HeartbeatRequest.overAt, if_pos hc]; rfl) fun hc _ => by simp only [HeartbeatRequest.overAt, if_neg hc]; rfl) : Sim (HeartbeatRequest.overAt v 3 · t0) (HeartbeatRequest.overAt v 4 · t0) _)
theorem HeartbeatRequest.reusable : HeartbeatRequest.reuse.Holds HeartbeatRequest.layout where
  decode v t0 d := by
    have h := HeartbeatRequest.sim v t0 {} d
    have e : HeartbeatRequest.overAt v 0 {} t0 = t0 := by first | rfl | (simp only [HeartbeatRequest.overAt, upto_zero, Option.none_or, ite_self] <;> rfl)
    simp only [e] at h
    exact h
  same v y t0 _h := (app_congr (app_congr (app_congr rfl rfl) rfl) (again_opt Wire.string y.GroupInstanceId t0.GroupInstanceId))
  stale _ _ h := h.elim

/-- What `t0` becomes where a new `HeartbeatResponse` becomes `y`. -/
def HeartbeatResponse.over (version : Int16) (y t0 : HeartbeatResponse) : HeartbeatResponse :=
  { ThrottleTimeMs := if version ≥ 1 then y.ThrottleTimeMs else t0.ThrottleTimeMs,
    ErrorCode := y.ErrorCode }

/-- An array of structures is nil. -/
def HeartbeatResponse.Nulls (_version : Int16) (_y : HeartbeatResponse) : Prop :=
  False

/-- `HeartbeatResponse` in use again. -/
def HeartbeatResponse.reuse : Reuse HeartbeatResponse.type := { over := HeartbeatResponse.over, Nulls := HeartbeatResponse.Nulls }

/-- The same after the first `k` statements of `Decode`. -/
def HeartbeatResponse.overAt (version : Int16) (k : Nat) (y t0 : HeartbeatResponse) : HeartbeatResponse :=
  { ThrottleTimeMs := upto k 0 (if version ≥ 1 then y.ThrottleTimeMs else t0.ThrottleTimeMs) t0.ThrottleTimeMs,
    ErrorCode := upto k 1 (y.ErrorCode) t0.ErrorCode }

theorem HeartbeatResponse.sim (v : Int16) (t0 : HeartbeatResponse) : Sim (HeartbeatResponse.overAt v 0 · t0) (HeartbeatResponse.overAt v 2 · t0) (HeartbeatResponse.decode v) :=
  ((.onlyIf (fun hc => .field fun _ _ => by simp only [HeartbeatResponse.overAt, if_pos hc]; rfl) fun hc _ => by simp only [HeartbeatResponse.overAt, if_neg hc]; rfl) : Sim (HeartbeatResponse.overAt v 0 · t0) (HeartbeatResponse.overAt v 1 · t0) _)
    |>.andThen ((.field fun _ _ => rfl) : Sim (HeartbeatResponse.overAt v 1 · t0) (HeartbeatResponse.overAt v 2 · t0) _)
theorem HeartbeatResponse.reusable : HeartbeatResponse.reuse.Holds HeartbeatResponse.layout where
  decode v t0 d := by
    have h := HeartbeatResponse.sim v t0 {} d
    have e : HeartbeatResponse.overAt v 0 {} t0 = t0 := by first | rfl | (simp only [HeartbeatResponse.overAt, upto_zero, Option.none_or, ite_self] <;> rfl)
    simp only [e] at h
    exact h
  same v y t0 _h := (app_congr (again_opt Wire.int32 y.ThrottleTimeMs t0.ThrottleTimeMs) rfl)
  stale _ _ h := h.elim

/-- The structures of the Heartbeat messages. -/
def reuseHeartbeat : List (Σ (M : MsgType) (_ : Layout M), Reuse M) :=
  [⟨HeartbeatRequest.type, HeartbeatRequest.layout, HeartbeatRequest.reuse⟩,
   ⟨HeartbeatResponse.type, HeartbeatResponse.layout, HeartbeatResponse.reuse⟩]
theorem reuseHeartbeat_holds : ∀ p ∈ reuseHeartbeat, p.2.2.Holds p.2.1 := by
  unfold reuseHeartbeat
  simp only [List.forall_mem_cons]
  exact ⟨HeartbeatRequest.reusable, HeartbeatResponse.reusable, fun _ h => absurd h (by simp)⟩

end Kafka.Msg
