import Verif.Message.Reuse
import Verif.Gen.Spec.ControlledShutdown
/-!
Generated by tools/gen_messages.py: decoding into ControlledShutdown messages used before.
-/
set_option linter.unusedSimpArgs false
set_option linter.unusedVariables false
namespace Kafka.Msg

/-- What `t0` becomes where a new `ControlledShutdownRequest` becomes `y`. -/
def ControlledShutdownRequest.over (version : Int16) (y t0 : ControlledShutdownRequest) : ControlledShutdownRequest :=
  { BrokerId := y.BrokerId,
    BrokerEpoch := if version ≥ 2 then y.BrokerEpoch else t0.BrokerEpoch }

/-- An array of structures is nil. -/
def ControlledShutdownRequest.Nulls (_version : Int16) (_y : ControlledShutdownRequest) : Prop :=
  False

/-- `ControlledShutdownRequest` in use again. -/
def ControlledShutdownRequest.reuse : Reuse ControlledShutdownRequest.type := { over := ControlledShutdownRequest.over, Nulls := ControlledShutdownRequest.Nulls }

/-- The same after the first `k` statements of `Decode`. -/
def ControlledShutdownRequest.overAt (version : Int16) (k : Nat) (y t0 : ControlledShutdownRequest) : ControlledShutdownRequest :=
  { BrokerId := upto k 0 (y.BrokerId) t0.BrokerId,
    BrokerEpoch := upto k 1 (if version ≥ 2 then y.BrokerEpoch else t0.BrokerEpoch) t0.BrokerEpoch }

theorem ControlledShutdownRequest.sim (v : Int16) (t0 : ControlledShutdownRequest) : Sim (ControlledShutdownRequest.overAt v 0 · t0) (ControlledShutdownRequest.overAt v 2 · t0) (ControlledShutdownRequest.decode v) :=
  ((.field fun _ _ => rfl) : Sim (ControlledShutdownRequest.overAt v 0 · t0) (ControlledShutdownRequest.overAt v 1 · t0) _)
    |>.andThen ((.onlyIf (fun hc => .field fun _ _ => by simp only [ControlledShutdownRequest.overAt, if_pos hc]; rfl) fun hc _ => by simp only [ControlledShutdownRequest.overAt, if_neg hc]; rfl) : Sim (ControlledShutdownRequest.overAt v 1 · t0) (ControlledShutdownRequest.overAt v 2 · t0) _)
theorem ControlledShutdownRequest.reusable : ControlledShutdownRequest.reuse.Holds ControlledShutdownRequest.layout where
  decode v t0 d := by
    have h := ControlledShutdownRequest.sim v t0 {} d
    have e : ControlledShutdownRequest.overAt v 0 {} t0 = t0 := by first | rfl | (simp only [ControlledShutdownRequest.overAt, upto_zero, Option.none_or, ite_self] <;> rfl)
    simp only [e] at h
    exact h
  same v y t0 h := (app_congr rfl (again_opt Wire.int64 y.BrokerEpoch t0.BrokerEpoch))
  stale _ _ h := h.elim

/-- What `t0` becomes where a new `RemainingPartition7` becomes `y`. -/
def RemainingPartition7.over (_version : Int16) (y _t0 : RemainingPartition7) : RemainingPartition7 :=
  { TopicName := y.TopicName,
    PartitionIndex := y.PartitionIndex }

/-- An array of structures is nil. -/
def RemainingPartition7.Nulls (_version : Int16) (_y : RemainingPartition7) : Prop :=
  False

/-- `RemainingPartition7` in use again. -/
def RemainingPartition7.reuse : Reuse RemainingPartition7.type := { over := RemainingPartition7.over, Nulls := RemainingPartition7.Nulls }

/-- The same after the first `k` statements of `Decode`. -/
def RemainingPartition7.overAt (_version : Int16) (k : Nat) (y t0 : RemainingPartition7) : RemainingPartition7 :=
  { TopicName := upto k 0 (y.TopicName) t0.TopicName,
    PartitionIndex := upto k 1 (y.PartitionIndex) t0.PartitionIndex }

theorem RemainingPartition7.sim (v : Int16) (t0 : RemainingPartition7) : Sim (RemainingPartition7.overAt v 0 · t0) (RemainingPartition7.overAt v 2 · t0) (RemainingPartition7.decode v) :=
  ((.field fun _ _ => rfl) : Sim (RemainingPartition7.overAt v 0 · t0) (RemainingPartition7.overAt v 1 · t0) _)
    |>.andThen ((.field fun _ _ => rfl) : Sim (RemainingPartition7.overAt v 1 · t0) (RemainingPartition7.overAt v 2 · t0) _)
theorem RemainingPartition7.reusable : RemainingPartition7.reuse.Holds RemainingPartition7.layout where
  decode v t0 d := by
    have h := RemainingPartition7.sim v t0 {} d
    have e : RemainingPartition7.overAt v 0 {} t0 = t0 := by first | rfl | (simp only [RemainingPartition7.overAt, upto_zero, Option.none_or, ite_self] <;> rfl)
    simp only [e] at h
    exact h
  same v y t0 _h := (app_congr rfl rfl)
  stale _ _ h := h.elim

/-- What `t0` becomes where a new `ControlledShutdownResponse` becomes `y`. -/
def ControlledShutdownResponse.over (_version : Int16) (y t0 : ControlledShutdownResponse) : ControlledShutdownResponse :=
  { ErrorCode := y.ErrorCode,
    RemainingPartitions := y.RemainingPartitions.or t0.RemainingPartitions }

/-- An array of structures is nil. -/
def ControlledShutdownResponse.Nulls (_version : Int16) (y : ControlledShutdownResponse) : Prop :=
  y.RemainingPartitions = none

/-- `ControlledShutdownResponse` in use again. -/
def ControlledShutdownResponse.reuse : Reuse ControlledShutdownResponse.type := { over := ControlledShutdownResponse.over, Nulls := ControlledShutdownResponse.Nulls }

/-- The same after the first `k` statements of `Decode`. -/
def ControlledShutdownResponse.overAt (_version : Int16) (k : Nat) (y t0 : ControlledShutdownResponse) : ControlledShutdownResponse :=
  { ErrorCode := upto k 0 (y.ErrorCode) t0.ErrorCode,
    RemainingPartitions := y.RemainingPartitions.or t0.RemainingPartitions }

theorem ControlledShutdownResponse.sim (v : Int16) (t0 : ControlledShutdownResponse) : Sim (ControlledShutdownResponse.overAt v 0 · t0) (ControlledShutdownResponse.overAt v 2 · t0) (ControlledShutdownResponse.decode v) :=
  ((.field fun _ _ => rfl) : Sim (ControlledShutdownResponse.overAt v 0 · t0) (ControlledShutdownResponse.overAt v 1 · t0) _)
    |>.andThen ((.structs (fun _ _ => rfl) fun _ => rfl) : Sim (ControlledShutdownResponse.overAt v 1 · t0) (ControlledShutdownResponse.overAt v 2 · t0) _)
theorem ControlledShutdownResponse.reusable : ControlledShutdownResponse.reuse.Holds ControlledShutdownResponse.layout where
  decode v t0 d := by
    have h := ControlledShutdownResponse.sim v t0 {} d
    have e : ControlledShutdownResponse.overAt v 0 {} t0 = t0 := by first | rfl | (simp only [ControlledShutdownResponse.overAt, upto_zero, Option.none_or, ite_self] <;> rfl)
    simp only [e] at h
    exact h
  same v y t0 h := (app_congr rfl (same_or fun hn => h (hn)))
  stale v y h := by
    obtain h := h
    · exact ⟨({ RemainingPartitions := some [{}] } : ControlledShutdownResponse), (app_ne_right rfl (stale_or h))⟩

/-- The structures of the ControlledShutdown messages. -/
def reuseControlledShutdown : List (Σ (M : MsgType) (_ : Layout M), Reuse M) :=
  [⟨ControlledShutdownRequest.type, ControlledShutdownRequest.layout, ControlledShutdownRequest.reuse⟩,
   ⟨ControlledShutdownResponse.type, ControlledShutdownResponse.layout, ControlledShutdownResponse.reuse⟩,
   ⟨RemainingPartition7.type, RemainingPartition7.layout, RemainingPartition7.reuse⟩]
theorem reuseControlledShutdown_holds : ∀ p ∈ reuseControlledShutdown, p.2.2.Holds p.2.1 := by
  unfold reuseControlledShutdown
  simp only [List.forall_mem_cons]
  exact ⟨ControlledShutdownRequest.reusable, ControlledShutdownResponse.reusable, RemainingPartition7.reusable, fun _ h => absurd h (by simp)⟩

end Kafka.Msg
