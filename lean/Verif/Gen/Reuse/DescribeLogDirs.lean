import Verif.Message.Reuse
import Verif.Gen.Spec.DescribeLogDirs
/-!
Generated by tools/gen_messages.py: decoding into DescribeLogDirs messages used before.
-/
set_option linter.unusedSimpArgs false
set_option linter.unusedVariables false
namespace Kafka.Msg

/-- What `t0` becomes where a new `DescribableLogDirTopic35` becomes `y`. -/
def DescribableLogDirTopic35.over (_version : Int16) (y _t0 : DescribableLogDirTopic35) : DescribableLogDirTopic35 :=
  { Topic := y.Topic,
    PartitionIndex := y.PartitionIndex }

/-- An array of structures is nil. -/
def DescribableLogDirTopic35.Nulls (_version : Int16) (_y : DescribableLogDirTopic35) : Prop :=
  False

/-- `DescribableLogDirTopic35` in use again. -/
def DescribableLogDirTopic35.reuse : Reuse DescribableLogDirTopic35.type := { over := DescribableLogDirTopic35.over, Nulls := DescribableLogDirTopic35.Nulls }

/-- The same after the first `k` statements of `Decode`. -/
def DescribableLogDirTopic35.overAt (_version : Int16) (k : Nat) (y t0 : DescribableLogDirTopic35) : DescribableLogDirTopic35 :=
  { Topic := upto k 0 (y.Topic) t0.Topic,
    PartitionIndex := upto k 1 (y.PartitionIndex) t0.PartitionIndex }

theorem DescribableLogDirTopic35.sim (v : Int16) (t0 : DescribableLogDirTopic35) : Sim (DescribableLogDirTopic35.overAt v 0 · t0) (DescribableLogDirTopic35.overAt v 2 · t0) (DescribableLogDirTopic35.decode v) :=
  ((.field fun _ _ => rfl) : Sim (DescribableLogDirTopic35.overAt v 0 · t0) (DescribableLogDirTopic35.overAt v 1 · t0) _)
    |>.andThen ((.field fun _ _ => rfl) : Sim (DescribableLogDirTopic35.overAt v 1 · t0) (DescribableLogDirTopic35.overAt v 2 · t0) _)
theorem DescribableLogDirTopic35.reusable : DescribableLogDirTopic35.reuse.Holds DescribableLogDirTopic35.layout where
  decode v t0 d := by
    have h := DescribableLogDirTopic35.sim v t0 {} d
    have e : DescribableLogDirTopic35.overAt v 0 {} t0 = t0 := by first | rfl | (simp only [DescribableLogDirTopic35.overAt, upto_zero, Option.none_or, ite_self] <;> rfl)
    simp only [e] at h
    exact h
  same v y t0 _h := (app_congr rfl rfl)
  stale _ _ h := h.elim

/-- What `t0` becomes where a new `DescribeLogDirsRequest` becomes `y`. -/
def DescribeLogDirsRequest.over (_version : Int16) (y t0 : DescribeLogDirsRequest) : DescribeLogDirsRequest :=
  { Topics := y.Topics.or t0.Topics }

/-- An array of structures is nil. -/
def DescribeLogDirsRequest.Nulls (_version : Int16) (y : DescribeLogDirsRequest) : Prop :=
  y.Topics = none

/-- `DescribeLogDirsRequest` in use again. -/
def DescribeLogDirsRequest.reuse : Reuse DescribeLogDirsRequest.type := { over := DescribeLogDirsRequest.over, Nulls := DescribeLogDirsRequest.Nulls }

/-- The same after the first `k` statements of `Decode`. -/
def DescribeLogDirsRequest.overAt (_version : Int16) (_k : Nat) (y t0 : DescribeLogDirsRequest) : DescribeLogDirsRequest :=
  { Topics := y.Topics.or t0.Topics }

theorem DescribeLogDirsRequest.sim (v : Int16) (t0 : DescribeLogDirsRequest) : Sim (DescribeLogDirsRequest.overAt v 0 · t0) (DescribeLogDirsRequest.overAt v 1 · t0) (DescribeLogDirsRequest.decode v) :=
  ((.structs (fun _ _ => rfl) fun _ => rfl) : Sim (DescribeLogDirsRequest.overAt v 0 · t0) (DescribeLogDirsRequest.overAt v 1 · t0) _)
theorem DescribeLogDirsRequest.reusable : DescribeLogDirsRequest.reuse.Holds DescribeLogDirsRequest.layout where
  decode v t0 d := by
    have h := DescribeLogDirsRequest.sim v t0 {} d
    have e : DescribeLogDirsRequest.overAt v 0 {} t0 = t0 := by first | rfl | (simp only [DescribeLogDirsRequest.overAt, upto_zero, Option.none_or, ite_self] <;> rfl)
    simp only [e] at h
    exact h
  same v y t0 h := (same_or fun hn => h (hn))
  stale v y h := by
    obtain h := h
    · exact ⟨({ Topics := some [{}] } : DescribeLogDirsRequest), (stale_or h)⟩

/-- What `t0` becomes where a new `DescribeLogDirsPartition35` becomes `y`. -/
def DescribeLogDirsPartition35.over (_version : Int16) (y _t0 : DescribeLogDirsPartition35) : DescribeLogDirsPartition35 :=
  { PartitionIndex := y.PartitionIndex,
    PartitionSize := y.PartitionSize,
    OffsetLag := y.OffsetLag,
    IsFutureKey := y.IsFutureKey }

/-- An array of structures is nil. -/
def DescribeLogDirsPartition35.Nulls (_version : Int16) (_y : DescribeLogDirsPartition35) : Prop :=
  False

/-- `DescribeLogDirsPartition35` in use again. -/
def DescribeLogDirsPartition35.reuse : Reuse DescribeLogDirsPartition35.type := { over := DescribeLogDirsPartition35.over, Nulls := DescribeLogDirsPartition35.Nulls }

/-- The same after the first `k` statements of `Decode`. -/
def DescribeLogDirsPartition35.overAt (_version : Int16) (k : Nat) (y t0 : DescribeLogDirsPartition35) : DescribeLogDirsPartition35 :=
  { PartitionIndex := upto k 0 (y.PartitionIndex) t0.PartitionIndex,
    PartitionSize := upto k 1 (y.PartitionSize) t0.PartitionSize,
    OffsetLag := upto k 2 (y.OffsetLag) t0.OffsetLag,
    IsFutureKey := upto k 3 (y.IsFutureKey) t0.IsFutureKey }

theorem DescribeLogDirsPartition35.sim (v : Int16) (t0 : DescribeLogDirsPartition35) : Sim (DescribeLogDirsPartition35.overAt v 0 · t0) (DescribeLogDirsPartition35.overAt v 4 · t0) (DescribeLogDirsPartition35.decode v) :=
  ((.field fun _ _ => rfl) : Sim (DescribeLogDirsPartition35.overAt v 0 · t0) (DescribeLogDirsPartition35.overAt v 1 · t0) _)
    |>.andThen ((.field fun _ _ => rfl) : Sim (DescribeLogDirsPartition35.overAt v 1 · t0) (DescribeLogDirsPartition35.overAt v 2 · t0) _)
    |>.andThen ((.field fun _ _ => rfl) : Sim (DescribeLogDirsPartition35.overAt v 2 · t0) (DescribeLogDirsPartition35.overAt v 3 · t0) _)
    |>.andThen ((.field fun _ _ => rfl) : Sim (DescribeLogDirsPartition35.overAt v 3 · t0) (DescribeLogDirsPartition35.overAt v 4 · t0) _)
theorem DescribeLogDirsPartition35.reusable : DescribeLogDirsPartition35.reuse.Holds DescribeLogDirsPartition35.layout where
  decode v t0 d := by
    have h := DescribeLogDirsPartition35.sim v t0 {} d
    have e : DescribeLogDirsPartition35.overAt v 0 {} t0 = t0 := by first | rfl | (simp only [DescribeLogDirsPartition35.overAt, upto_zero, Option.none_or, ite_self] <;> rfl)
    simp only [e] at h
    exact h
  same v y t0 _h := (app_congr (app_congr (app_congr rfl rfl) rfl) rfl)
  stale _ _ h := h.elim

/-- What `t0` becomes where a new `DescribeLogDirsTopic35` becomes `y`. -/
def DescribeLogDirsTopic35.over (_version : Int16) (y t0 : DescribeLogDirsTopic35) : DescribeLogDirsTopic35 :=
  { Name := y.Name,
    Partitions := y.Partitions.or t0.Partitions }

/-- An array of structures is nil. -/
def DescribeLogDirsTopic35.Nulls (_version : Int16) (y : DescribeLogDirsTopic35) : Prop :=
  y.Partitions = none

/-- `DescribeLogDirsTopic35` in use again. -/
def DescribeLogDirsTopic35.reuse : Reuse DescribeLogDirsTopic35.type := { over := DescribeLogDirsTopic35.over, Nulls := DescribeLogDirsTopic35.Nulls }

/-- The same after the first `k` statements of `Decode`. -/
def DescribeLogDirsTopic35.overAt (_version : Int16) (k : Nat) (y t0 : DescribeLogDirsTopic35) : DescribeLogDirsTopic35 :=
  { Name := upto k 0 (y.Name) t0.Name,
    Partitions := y.Partitions.or t0.Partitions }

theorem DescribeLogDirsTopic35.sim (v : Int16) (t0 : DescribeLogDirsTopic35) : Sim (DescribeLogDirsTopic35.overAt v 0 · t0) (DescribeLogDirsTopic35.overAt v 2 · t0) (DescribeLogDirsTopic35.decode v) :=
  ((.field fun _ _ => rfl) : Sim (DescribeLogDirsTopic35.overAt v 0 · t0) (DescribeLogDirsTopic35.overAt v 1 · t0) _)
    |>.andThen ((.structs (fun _ _ => rfl) fun _ => rfl) : Sim (DescribeLogDirsTopic35.overAt v 1 · t0) (DescribeLogDirsTopic35.overAt v 2 · t0) _)
theorem DescribeLogDirsTopic35.reusable : DescribeLogDirsTopic35.reuse.Holds DescribeLogDirsTopic35.layout where
  decode v t0 d := by
    have h := DescribeLogDirsTopic35.sim v t0 {} d
    have e : DescribeLogDirsTopic35.overAt v 0 {} t0 = t0 := by first | rfl | (simp only [DescribeLogDirsTopic35.overAt, upto_zero, Option.none_or, ite_self] <;> rfl)
    simp only [e] at h
    exact h
  same v y t0 h := (app_congr rfl (same_or fun hn => h (hn)))
  stale v y h := by
    obtain h := h
    · exact ⟨({ Partitions := some [{}] } : DescribeLogDirsTopic35), (app_ne_right rfl (stale_or h))⟩

/-- What `t0` becomes where a new `DescribeLogDirsResult35` becomes `y`. -/
def DescribeLogDirsResult35.over (_version : Int16) (y t0 : DescribeLogDirsResult35) : DescribeLogDirsResult35 :=
  { ErrorCode := y.ErrorCode,
    LogDir := y.LogDir,
    Topics := y.Topics.or t0.Topics }

/-- An array of structures is nil. -/
def DescribeLogDirsResult35.Nulls (_version : Int16) (y : DescribeLogDirsResult35) : Prop :=
  y.Topics = none

/-- `DescribeLogDirsResult35` in use again. -/
def DescribeLogDirsResult35.reuse : Reuse DescribeLogDirsResult35.type := { over := DescribeLogDirsResult35.over, Nulls := DescribeLogDirsResult35.Nulls }

/-- The same after the first `k` statements of `Decode`. -/
def DescribeLogDirsResult35.overAt (_version : Int16) (k : Nat) (y t0 : DescribeLogDirsResult35) : DescribeLogDirsResult35 :=
  { ErrorCode := upto k 0 (y.ErrorCode) t0.ErrorCode,
    LogDir := upto k 1 (y.LogDir) t0.LogDir,
    Topics := y.Topics.or t0.Topics }

theorem DescribeLogDirsResult35.sim (v : Int16) (t0 : DescribeLogDirsResult35) : Sim (DescribeLogDirsResult35.overAt v 0 · t0) (DescribeLogDirsResult35.overAt v 3 · t0) (DescribeLogDirsResult35.decode v) :=
  ((.field fun _ _ => rfl) : Sim (DescribeLogDirsResult35.overAt v 0 · t0) (DescribeLogDirsResult35.overAt v 1 · t0) _)
    |>.andThen ((.field fun _ _ => rfl) : Sim (DescribeLogDirsResult35.overAt v 1 · t0) (DescribeLogDirsResult35.overAt v 2 · t0) _)
    |>.andThen ((.structs (fun _ _ => rfl) fun _ => rfl) : Sim (DescribeLogDirsResult35.overAt v 2 · t0) (DescribeLogDirsResult35.overAt v 3 · t0) _)
theorem DescribeLogDirsResult35.reusable : DescribeLogDirsResult35.reuse.Holds DescribeLogDirsResult35.layout where
  decode v t0 d := by
    have h := DescribeLogDirsResult35.sim v t0 {} d
    have e : DescribeLogDirsResult35.overAt v 0 {} t0 = t0 := by first | rfl | (simp only [DescribeLogDirsResult35.overAt, upto_zero, Option.none_or, ite_self] <;> rfl)
    simp only [e] at h
    exact h
  same v y t0 h := (app_congr (app_congr rfl rfl) (same_or fun hn => h (hn)))
  stale v y h := by
    obtain h := h
    · exact ⟨({ Topics := some [{}] } : DescribeLogDirsResult35), (app_ne_right (app_congr rfl rfl) (stale_or h))⟩

/-- What `t0` becomes where a new `DescribeLogDirsResponse` becomes `y`. -/
def DescribeLogDirsResponse.over (_version : Int16) (y t0 : DescribeLogDirsResponse) : DescribeLogDirsResponse :=
  { ThrottleTimeMs := y.ThrottleTimeMs,
    Results := y.Results.or t0.Results }

/-- An array of structures is nil. -/
def DescribeLogDirsResponse.Nulls (_version : Int16) (y : DescribeLogDirsResponse) : Prop :=
  y.Results = none

/-- `DescribeLogDirsResponse` in use again. -/
def DescribeLogDirsResponse.reuse : Reuse DescribeLogDirsResponse.type := { over := DescribeLogDirsResponse.over, Nulls := DescribeLogDirsResponse.Nulls }

/-- The same after the first `k` statements of `Decode`. -/
def DescribeLogDirsResponse.overAt (_version : Int16) (k : Nat) (y t0 : DescribeLogDirsResponse) : DescribeLogDirsResponse :=
  { ThrottleTimeMs := upto k 0 (y.ThrottleTimeMs) t0.ThrottleTimeMs,
    Results := y.Results.or t0.Results }

theorem DescribeLogDirsResponse.sim (v : Int16) (t0 : DescribeLogDirsResponse) : Sim (DescribeLogDirsResponse.overAt v 0 · t0) (DescribeLogDirsResponse.overAt v 2 · t0) (DescribeLogDirsResponse.decode v) :=
  ((.field fun _ _ => rfl) : Sim (DescribeLogDirsResponse.overAt v 0 · t0) (DescribeLogDirsResponse.overAt v 1 · t0) _)
    |>.andThen ((.structs (fun _ _ => rfl) fun _ => rfl) : Sim (DescribeLogDirsResponse.overAt v 1 · t0) (DescribeLogDirsResponse.overAt v 2 · t0) _)
theorem DescribeLogDirsResponse.reusable : DescribeLogDirsResponse.reuse.Holds DescribeLogDirsResponse.layout where
  decode v t0 d := by
    have h := DescribeLogDirsResponse.sim v t0 {} d
    have e : DescribeLogDirsResponse.overAt v 0 {} t0 = t0 := by first | rfl | (simp only [DescribeLogDirsResponse.overAt, upto_zero, Option.none_or, ite_self] <;> rfl)
    simp only [e] at h
    exact h
  same v y t0 h := (app_congr rfl (same_or fun hn => h (hn)))
  stale v y h := by
    obtain h := h
    · exact ⟨({ Results := some [{}] } : DescribeLogDirsResponse), (app_ne_right rfl (stale_or h))⟩

/-- The structures of the DescribeLogDirs messages. -/
def reuseDescribeLogDirs : List (Σ (M : MsgType) (_ : Layout M), Reuse M) :=
  [⟨DescribeLogDirsRequest.type, DescribeLogDirsRequest.layout, DescribeLogDirsRequest.reuse⟩,
   ⟨DescribableLogDirTopic35.type, DescribableLogDirTopic35.layout, DescribableLogDirTopic35.reuse⟩,
   ⟨DescribeLogDirsResponse.type, DescribeLogDirsResponse.layout, DescribeLogDirsResponse.reuse⟩,
   ⟨DescribeLogDirsResult35.type, DescribeLogDirsResult35.layout, DescribeLogDirsResult35.reuse⟩,
   ⟨DescribeLogDirsTopic35.type, DescribeLogDirsTopic35.layout, DescribeLogDirsTopic35.reuse⟩,
   ⟨DescribeLogDirsPartition35.type, DescribeLogDirsPartition35.layout, DescribeLogDirsPartition35.reuse⟩]
theorem reuseDescribeLogDirs_holds : ∀ p ∈ reuseDescribeLogDirs, p.2.2.Holds p.2.1 := by
  unfold reuseDescribeLogDirs
  simp only [List.forall_mem_cons]
  exact ⟨DescribeLogDirsRequest.reusable, DescribableLogDirTopic35.reusable, DescribeLogDirsResponse.reusable, DescribeLogDirsResult35.reusable, DescribeLogDirsTopic35.reusable, DescribeLogDirsPartition35.reusable, fun _ h => absurd h (by simp)⟩

end Kafka.Msg
