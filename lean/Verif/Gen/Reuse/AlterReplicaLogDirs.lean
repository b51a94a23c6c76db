import Verif.Message.Reuse
import Verif.Gen.Spec.AlterReplicaLogDirs
/-!
Generated by tools/gen_messages.py: decoding into AlterReplicaLogDirs messages used before.
-/
set_option linter.unusedSimpArgs false
set_option linter.unusedVariables false
namespace Kafka.Msg

/-- What `t0` becomes where a new `AlterReplicaLogDirTopic34` becomes `y`. -/
def AlterReplicaLogDirTopic34.over (_version : Int16) (y _t0 : AlterReplicaLogDirTopic34) : AlterReplicaLogDirTopic34 :=
  { Name := y.Name,
    Partitions := y.Partitions }

/-- An array of structures is nil. -/
def AlterReplicaLogDirTopic34.Nulls (_version : Int16) (_y : AlterReplicaLogDirTopic34) : Prop :=
  False

/-- `AlterReplicaLogDirTopic34` in use again. -/
def AlterReplicaLogDirTopic34.reuse : Reuse AlterReplicaLogDirTopic34.type := { over := AlterReplicaLogDirTopic34.over, Nulls := AlterReplicaLogDirTopic34.Nulls }

/-- The same after the first `k` statements of `Decode`. -/
def AlterReplicaLogDirTopic34.overAt (_version : Int16) (k : Nat) (y t0 : AlterReplicaLogDirTopic34) : AlterReplicaLogDirTopic34 :=
  { Name := upto k 0 (y.Name) t0.Name,
    Partitions := upto k 1 (y.Partitions) t0.Partitions }

theorem AlterReplicaLogDirTopic34.sim (v : Int16) (t0 : AlterReplicaLogDirTopic34) : Sim (AlterReplicaLogDirTopic34.overAt v 0 · t0) (AlterReplicaLogDirTopic34.overAt v 2 · t0) (AlterReplicaLogDirTopic34.decode v) :=
  ((.field fun _ _ => rfl) : Sim (AlterReplicaLogDirTopic34.overAt v 0 · t0) (AlterReplicaLogDirTopic34.overAt v 1 · t0) _)
    |>.andThen ((.field fun _ _ => rfl) : Sim (AlterReplicaLogDirTopic34.overAt v 1 · t0) (AlterReplicaLogDirTopic34.overAt v 2 · t0) _)
theorem AlterReplicaLogDirTopic34.reusable : AlterReplicaLogDirTopic34.reuse.Holds AlterReplicaLogDirTopic34.layout where
  decode v t0 d := by
    have h := AlterReplicaLogDirTopic34.sim v t0 {} d
    have e : AlterReplicaLogDirTopic34.overAt v 0 {} t0 = t0 := by first | rfl | (simp only [AlterReplicaLogDirTopic34.overAt, upto_zero, Option.none_or, ite_self] <;> rfl)
    simp only [e] at h
    exact h
  same v y t0 _h := (app_congr rfl rfl)
  stale _ _ h := h.elim

/-- What `t0` becomes where a new `AlterReplicaLogDir34` becomes `y`. -/
def AlterReplicaLogDir34.over (_version : Int16) (y t0 : AlterReplicaLogDir34) : AlterReplicaLogDir34 :=
  { Path := y.Path,
    Topics := y.Topics.or t0.Topics }

/-- An array of structures is nil. -/
def AlterReplicaLogDir34.Nulls (_version : Int16) (y : AlterReplicaLogDir34) : Prop :=
  y.Topics = none

/-- `AlterReplicaLogDir34` in use again. -/
def AlterReplicaLogDir34.reuse : Reuse AlterReplicaLogDir34.type := { over := AlterReplicaLogDir34.over, Nulls := AlterReplicaLogDir34.Nulls }

/-- The same after the first `k` statements of `Decode`. -/
def AlterReplicaLogDir34.overAt (_version : Int16) (k : Nat) (y t0 : AlterReplicaLogDir34) : AlterReplicaLogDir34 :=
  { Path := upto k 0 (y.Path) t0.Path,
    Topics := y.Topics.or t0.Topics }

theorem AlterReplicaLogDir34.sim (v : Int16) (t0 : AlterReplicaLogDir34) : Sim (AlterReplicaLogDir34.overAt v 0 · t0) (AlterReplicaLogDir34.overAt v 2 · t0) (AlterReplicaLogDir34.decode v) :=
  ((.field fun _ _ => rfl) : Sim (AlterReplicaLogDir34.overAt v 0 · t0) (AlterReplicaLogDir34.overAt v 1 · t0) _)
    |>.andThen ((.structs (fun _ _ => rfl) fun _ => rfl) : Sim (AlterReplicaLogDir34.overAt v 1 · t0) (AlterReplicaLogDir34.overAt v 2 · t0) _)
theorem AlterReplicaLogDir34.reusable : AlterReplicaLogDir34.reuse.Holds AlterReplicaLogDir34.layout where
  decode v t0 d := by
    have h := AlterReplicaLogDir34.sim v t0 {} d
    have e : AlterReplicaLogDir34.overAt v 0 {} t0 = t0 := by first | rfl | (simp only [AlterReplicaLogDir34.overAt, upto_zero, Option.none_or, ite_self] <;> rfl)
    simp only [e] at h
    exact h
  same v y t0 h := (app_congr rfl (same_or fun hn => h (hn)))
  stale v y h := by
    obtain h := h
    · exact ⟨({ Topics := some [{}] } : AlterReplicaLogDir34), (app_ne_right rfl (stale_or h))⟩

/-- What `t0` becomes where a new `AlterReplicaLogDirsRequest` becomes `y`. -/
def AlterReplicaLogDirsRequest.over (_version : Int16) (y t0 : AlterReplicaLogDirsRequest) : AlterReplicaLogDirsRequest :=
  { Dirs := y.Dirs.or t0.Dirs }

/-- An array of structures is nil. -/
def AlterReplicaLogDirsRequest.Nulls (_version : Int16) (y : AlterReplicaLogDirsRequest) : Prop :=
  y.Dirs = none

/-- `AlterReplicaLogDirsRequest` in use again. -/
def AlterReplicaLogDirsRequest.reuse : Reuse AlterReplicaLogDirsRequest.type := { over := AlterReplicaLogDirsRequest.over, Nulls := AlterReplicaLogDirsRequest.Nulls }

/-- The same after the first `k` statements of `Decode`. -/
def AlterReplicaLogDirsRequest.overAt (_version : Int16) (_k : Nat) (y t0 : AlterReplicaLogDirsRequest) : AlterReplicaLogDirsRequest :=
  { Dirs := y.Dirs.or t0.Dirs }

theorem AlterReplicaLogDirsRequest.sim (v : Int16) (t0 : AlterReplicaLogDirsRequest) : Sim (AlterReplicaLogDirsRequest.overAt v 0 · t0) (AlterReplicaLogDirsRequest.overAt v 1 · t0) (AlterReplicaLogDirsRequest.decode v) :=
  ((.structs (fun _ _ => rfl) fun _ => rfl) : Sim (AlterReplicaLogDirsRequest.overAt v 0 · t0) (AlterReplicaLogDirsRequest.overAt v 1 · t0) _)
theorem AlterReplicaLogDirsRequest.reusable : AlterReplicaLogDirsRequest.reuse.Holds AlterReplicaLogDirsRequest.layout where
  decode v t0 d := by
    have h := AlterReplicaLogDirsRequest.sim v t0 {} d
    have e : AlterReplicaLogDirsRequest.overAt v 0 {} t0 = t0 := by first | rfl | (simp only [AlterReplicaLogDirsRequest.overAt, upto_zero, Option.none_or, ite_self] <;> rfl)
    simp only [e] at h
    exact h
  same v y t0 h := (same_or fun hn => h (hn))
  stale v y h := by
    obtain h := h
    · exact ⟨({ Dirs := some [{}] } : AlterReplicaLogDirsRequest), (stale_or h)⟩

/-- What `t0` becomes where a new `AlterReplicaLogDirPartitionResult34` becomes `y`. -/
def AlterReplicaLogDirPartitionResult34.over (_version : Int16) (y _t0 : AlterReplicaLogDirPartitionResult34) : AlterReplicaLogDirPartitionResult34 :=
  { PartitionIndex := y.PartitionIndex,
    ErrorCode := y.ErrorCode }

/-- An array of structures is nil. -/
def AlterReplicaLogDirPartitionResult34.Nulls (_version : Int16) (_y : AlterReplicaLogDirPartitionResult34) : Prop :=
  False

/-- `AlterReplicaLogDirPartitionResult34` in use again. -/
def AlterReplicaLogDirPartitionResult34.reuse : Reuse AlterReplicaLogDirPartitionResult34.type := { over := AlterReplicaLogDirPartitionResult34.over, Nulls := AlterReplicaLogDirPartitionResult34.Nulls }

/-- The same after the first `k` statements of `Decode`. -/
def AlterReplicaLogDirPartitionResult34.overAt (_version : Int16) (k : Nat) (y t0 : AlterReplicaLogDirPartitionResult34) : AlterReplicaLogDirPartitionResult34 :=
  { PartitionIndex := upto k 0 (y.PartitionIndex) t0.PartitionIndex,
    ErrorCode := upto k 1 (y.ErrorCode) t0.ErrorCode }

theorem AlterReplicaLogDirPartitionResult34.sim (v : Int16) (t0 : AlterReplicaLogDirPartitionResult34) : Sim (AlterReplicaLogDirPartitionResult34.overAt v 0 · t0) (AlterReplicaLogDirPartitionResult34.overAt v 2 · t0) (AlterReplicaLogDirPartitionResult34.decode v) :=
  ((.field fun _ _ => rfl) : Sim (AlterReplicaLogDirPartitionResult34.overAt v 0 · t0) (AlterReplicaLogDirPartitionResult34.overAt v 1 · t0) _)
    |>.andThen ((.field fun _ _ => rfl) : Sim (AlterReplicaLogDirPartitionResult34.overAt v 1 · t0) (AlterReplicaLogDirPartitionResult34.overAt v 2 · t0) _)
theorem AlterReplicaLogDirPartitionResult34.reusable : AlterReplicaLogDirPartitionResult34.reuse.Holds AlterReplicaLogDirPartitionResult34.layout where
  decode v t0 d := by
    have h := AlterReplicaLogDirPartitionResult34.sim v t0 {} d
    have e : AlterReplicaLogDirPartitionResult34.overAt v 0 {} t0 = t0 := by first | rfl | (simp only [AlterReplicaLogDirPartitionResult34.overAt, upto_zero, Option.none_or, ite_self] <;> rfl)
    simp only [e] at h
    exact h
  same v y t0 _h := (app_congr rfl rfl)
  stale _ _ h := h.elim

/-- What `t0` becomes where a new `AlterReplicaLogDirTopicResult34` becomes `y`. -/
def AlterReplicaLogDirTopicResult34.over (_version : Int16) (y t0 : AlterReplicaLogDirTopicResult34) : AlterReplicaLogDirTopicResult34 :=
  { TopicName := y.TopicName,
    Partitions := y.Partitions.or t0.Partitions }

/-- An array of structures is nil. -/
def AlterReplicaLogDirTopicResult34.Nulls (_version : Int16) (y : AlterReplicaLogDirTopicResult34) : Prop :=
  y.Partitions = none

/-- `AlterReplicaLogDirTopicResult34` in use again. -/
def AlterReplicaLogDirTopicResult34.reuse : Reuse AlterReplicaLogDirTopicResult34.type := { over := AlterReplicaLogDirTopicResult34.over, Nulls := AlterReplicaLogDirTopicResult34.Nulls }

/-- The same after the first `k` statements of `Decode`. -/
def AlterReplicaLogDirTopicResult34.overAt (_version : Int16) (k : Nat) (y t0 : AlterReplicaLogDirTopicResult34) : AlterReplicaLogDirTopicResult34 :=
  { TopicName := upto k 0 (y.TopicName) t0.TopicName,
    Partitions := y.Partitions.or t0.Partitions }

theorem AlterReplicaLogDirTopicResult34.sim (v : Int16) (t0 : AlterReplicaLogDirTopicResult34) : Sim (AlterReplicaLogDirTopicResult34.overAt v 0 · t0) (AlterReplicaLogDirTopicResult34.overAt v 2 · t0) (AlterReplicaLogDirTopicResult34.decode v) :=
  ((.field fun _ _ => rfl) : Sim (AlterReplicaLogDirTopicResult34.overAt v 0 · t0) (AlterReplicaLogDirTopicResult34.overAt v 1 · t0) _)
    |>.andThen ((.structs (fun _ _ => rfl) fun _ => rfl) : Sim (AlterReplicaLogDirTopicResult34.overAt v 1 · t0) (AlterReplicaLogDirTopicResult34.overAt v 2 · t0) _)
theorem AlterReplicaLogDirTopicResult34.reusable : AlterReplicaLogDirTopicResult34.reuse.Holds AlterReplicaLogDirTopicResult34.layout where
  decode v t0 d := by
    have h := AlterReplicaLogDirTopicResult34.sim v t0 {} d
    have e : AlterReplicaLogDirTopicResult34.overAt v 0 {} t0 = t0 := by first | rfl | (simp only [AlterReplicaLogDirTopicResult34.overAt, upto_zero, Option.none_or, ite_self] <;> rfl)
    simp only [e] at h
    exact h
  same v y t0 h := (app_congr rfl (same_or fun hn => h (hn)))
  stale v y h := by
    obtain h := h
    · exact ⟨({ Partitions := some [{}] } : AlterReplicaLogDirTopicResult34), (app_ne_right rfl (stale_or h))⟩

/-- What `t0` becomes where a new `AlterReplicaLogDirsResponse` becomes `y`. -/
def AlterReplicaLogDirsResponse.over (_version : Int16) (y t0 : AlterReplicaLogDirsResponse) : AlterReplicaLogDirsResponse :=
  { ThrottleTimeMs := y.ThrottleTimeMs,
    Results := y.Results.or t0.Results }

/-- An array of structures is nil. -/
def AlterReplicaLogDirsResponse.Nulls (_version : Int16) (y : AlterReplicaLogDirsResponse) : Prop :=
  y.Results = none

/-- `AlterReplicaLogDirsResponse` in use again. -/
def AlterReplicaLogDirsResponse.reuse : Reuse AlterReplicaLogDirsResponse.type := { over := AlterReplicaLogDirsResponse.over, Nulls := AlterReplicaLogDirsResponse.Nulls }

/-- The same after the first `k` statements of `Decode`. -/
def AlterReplicaLogDirsResponse.overAt (_version : Int16) (k : Nat) (y t0 : AlterReplicaLogDirsResponse) : AlterReplicaLogDirsResponse :=
  { ThrottleTimeMs := upto k 0 (y.ThrottleTimeMs) t0.ThrottleTimeMs,
    Results := y.Results.or t0.Results }

theorem AlterReplicaLogDirsResponse.sim (v : Int16) (t0 : AlterReplicaLogDirsResponse) : Sim (AlterReplicaLogDirsResponse.overAt v 0 · t0) (AlterReplicaLogDirsResponse.overAt v 2 · t0) (AlterReplicaLogDirsResponse.decode v) :=
  ((.field fun _ _ => rfl) : Sim (AlterReplicaLogDirsResponse.overAt v 0 · t0) (AlterReplicaLogDirsResponse.overAt v 1 · t0) _)
    |>.andThen ((.structs (fun _ _ => rfl) fun _ => rfl) : Sim (AlterReplicaLogDirsResponse.overAt v 1 · t0) (AlterReplicaLogDirsResponse.overAt v 2 · t0) _)
theorem AlterReplicaLogDirsResponse.reusable : AlterReplicaLogDirsResponse.reuse.Holds AlterReplicaLogDirsResponse.layout where
  decode v t0 d := by
    have h := AlterReplicaLogDirsResponse.sim v t0 {} d
    have e : AlterReplicaLogDirsResponse.overAt v 0 {} t0 = t0 := by first | rfl | (simp only [AlterReplicaLogDirsResponse.overAt, upto_zero, Option.none_or, ite_self] <;> rfl)
    simp only [e] at h
    exact h
  same v y t0 h := (app_congr rfl (same_or fun hn => h (hn)))
  stale v y h := by
    obtain h := h
    · exact ⟨({ Results := some [{}] } : AlterReplicaLogDirsResponse), (app_ne_right rfl (stale_or h))⟩

/-- The structures of the AlterReplicaLogDirs messages. -/
def reuseAlterReplicaLogDirs : List (Σ (M : MsgType) (_ : Layout M), Reuse M) :=
  [⟨AlterReplicaLogDirsRequest.type, AlterReplicaLogDirsRequest.layout, AlterReplicaLogDirsRequest.reuse⟩,
   ⟨AlterReplicaLogDir34.type, AlterReplicaLogDir34.layout, AlterReplicaLogDir34.reuse⟩,
   ⟨AlterReplicaLogDirTopic34.type, AlterReplicaLogDirTopic34.layout, AlterReplicaLogDirTopic34.reuse⟩,
   ⟨AlterReplicaLogDirsResponse.type, AlterReplicaLogDirsResponse.layout, AlterReplicaLogDirsResponse.reuse⟩,
   ⟨AlterReplicaLogDirTopicResult34.type, AlterReplicaLogDirTopicResult34.layout, AlterReplicaLogDirTopicResult34.reuse⟩,
   ⟨AlterReplicaLogDirPartitionResult34.type, AlterReplicaLogDirPartitionResult34.layout, AlterReplicaLogDirPartitionResult34.reuse⟩]
theorem reuseAlterReplicaLogDirs_holds : ∀ p ∈ reuseAlterReplicaLogDirs, p.2.2.Holds p.2.1 := by
  unfold reuseAlterReplicaLogDirs
  simp only [List.forall_mem_cons]
  exact ⟨AlterReplicaLogDirsRequest.reusable, AlterReplicaLogDir34.reusable, AlterReplicaLogDirTopic34.reusable, AlterReplicaLogDirsResponse.reusable, AlterReplicaLogDirTopicResult34.reusable, AlterReplicaLogDirPartitionResult34.reusable, fun _ h => absurd h (by simp)⟩

end Kafka.Msg
