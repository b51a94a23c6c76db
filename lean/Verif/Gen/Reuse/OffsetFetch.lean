import Verif.Message.Reuse
import Verif.Gen.Spec.OffsetFetch
/-!
Generated by tools/gen_messages.py: decoding into OffsetFetch messages used before.
-/
set_option linter.unusedSimpArgs false
set_option linter.unusedVariables false
namespace Kafka.Msg

/-- What `t0` becomes where a new `OffsetFetchRequestTopic9` becomes `y`. -/
def OffsetFetchRequestTopic9.over (_version : Int16) (y _t0 : OffsetFetchRequestTopic9) : OffsetFetchRequestTopic9 :=
  { Name := y.Name,
    PartitionIndexes := y.PartitionIndexes }

/-- An array of structures is nil. -/
def OffsetFetchRequestTopic9.Nulls (_version : Int16) (_y : OffsetFetchRequestTopic9) : Prop :=
  False

/-- `OffsetFetchRequestTopic9` in use again. -/
def OffsetFetchRequestTopic9.reuse : Reuse OffsetFetchRequestTopic9.type := { over := OffsetFetchRequestTopic9.over, Nulls := OffsetFetchRequestTopic9.Nulls }

/-- The same after the first `k` statements of `Decode`. -/
def OffsetFetchRequestTopic9.overAt (_version : Int16) (k : Nat) (y t0 : OffsetFetchRequestTopic9) : OffsetFetchRequestTopic9 :=
  { Name := upto k 0 (y.Name) t0.Name,
    PartitionIndexes := upto k 1 (y.PartitionIndexes) t0.PartitionIndexes }

theorem OffsetFetchRequestTopic9.sim (v : Int16) (t0 : OffsetFetchRequestTopic9) : Sim (OffsetFetchRequestTopic9.overAt v 0 · t0) (OffsetFetchRequestTopic9.overAt v 2 · t0) (OffsetFetchRequestTopic9.decode v) :=
  ((.field fun _ _ => rfl) : Sim (OffsetFetchRequestTopic9.overAt v 0 · t0) (OffsetFetchRequestTopic9.overAt v 1 · t0) _)
    |>.andThen ((.field fun _ _ => rfl) : Sim (OffsetFetchRequestTopic9.overAt v 1 · t0) (OffsetFetchRequestTopic9.overAt v 2 · t0) _)
theorem OffsetFetchRequestTopic9.reusable : OffsetFetchRequestTopic9.reuse.Holds OffsetFetchRequestTopic9.layout where
  decode v t0 d := by
    have h := OffsetFetchRequestTopic9.sim v t0 {} d
    have e : OffsetFetchRequestTopic9.overAt v 0 {} t0 = t0 := by first | rfl | (simp only [OffsetFetchRequestTopic9.overAt, upto_zero, Option.none_or, ite_self] <;> rfl)
    simp only [e] at h
    exact h
  same v y t0 _h := (app_congr rfl rfl)
  stale _ _ h := h.elim

/-- What `t0` becomes where a new `OffsetFetchRequest` becomes `y`. -/
def OffsetFetchRequest.over (_version : Int16) (y t0 : OffsetFetchRequest) : OffsetFetchRequest :=
  { GroupId := y.GroupId,
    Topics := y.Topics.or t0.Topics }

/-- An array of structures is nil. -/
def OffsetFetchRequest.Nulls (_version : Int16) (y : OffsetFetchRequest) : Prop :=
  y.Topics = none

/-- `OffsetFetchRequest` in use again. -/
def OffsetFetchRequest.reuse : Reuse OffsetFetchRequest.type := { over := OffsetFetchRequest.over, Nulls := OffsetFetchRequest.Nulls }

/-- The same after the first `k` statements of `Decode`. -/
def OffsetFetchRequest.overAt (_version : Int16) (k : Nat) (y t0 : OffsetFetchRequest) : OffsetFetchRequest :=
  { GroupId := upto k 0 (y.GroupId) t0.GroupId,
    Topics := y.Topics.or t0.Topics }

theorem OffsetFetchRequest.sim (v : Int16) (t0 : OffsetFetchRequest) : Sim (OffsetFetchRequest.overAt v 0 · t0) (OffsetFetchRequest.overAt v 2 · t0) (OffsetFetchRequest.decode v) :=
  ((.field fun _ _ => rfl) : Sim (OffsetFetchRequest.overAt v 0 · t0) (OffsetFetchRequest.overAt v 1 · t0) _)
    |>.andThen ((.structs (fun _ _ => rfl) fun _ => rfl) : Sim (OffsetFetchRequest.overAt v 1 · t0) (OffsetFetchRequest.overAt v 2 · t0) _)
theorem OffsetFetchRequest.reusable : OffsetFetchRequest.reuse.Holds OffsetFetchRequest.layout where
  decode v t0 d := by
    have h := OffsetFetchRequest.sim v t0 {} d
    have e : OffsetFetchRequest.overAt v 0 {} t0 = t0 := by first | rfl | (simp only [OffsetFetchRequest.overAt, upto_zero, Option.none_or, ite_self] <;> rfl)
    simp only [e] at h
    exact h
  same v y t0 h := (app_congr rfl (same_or fun hn => h (hn)))
  stale v y h := by
    obtain h := h
    · exact ⟨({ Topics := some [{}] } : OffsetFetchRequest), (app_ne_right rfl (stale_or h))⟩

/-- What `t0` becomes where a new `OffsetFetchResponsePartition9` becomes `y`. -/
def OffsetFetchResponsePartition9.over (version : Int16) (y t0 : OffsetFetchResponsePartition9) : OffsetFetchResponsePartition9 :=
  { PartitionIndex := y.PartitionIndex,
    CommittedOffset := y.CommittedOffset,
    CommittedLeaderEpoch := if version ≥ 5 then y.CommittedLeaderEpoch else t0.CommittedLeaderEpoch,
    Metadata := y.Metadata,
    ErrorCode := y.ErrorCode }

/-- An array of structures is nil. -/
def OffsetFetchResponsePartition9.Nulls (_version : Int16) (_y : OffsetFetchResponsePartition9) : Prop :=
  False

/-- `OffsetFetchResponsePartition9` in use again. -/
def OffsetFetchResponsePartition9.reuse : Reuse OffsetFetchResponsePartition9.type := { over := OffsetFetchResponsePartition9.over, Nulls := OffsetFetchResponsePartition9.Nulls }

/-- The same after the first `k` statements of `Decode`. -/
def OffsetFetchResponsePartition9.overAt (version : Int16) (k : Nat) (y t0 : OffsetFetchResponsePartition9) : OffsetFetchResponsePartition9 :=
  { PartitionIndex := upto k 0 (y.PartitionIndex) t0.PartitionIndex,
    CommittedOffset := upto k 1 (y.CommittedOffset) t0.CommittedOffset,
    CommittedLeaderEpoch := upto k 2 (if version ≥ 5 then y.CommittedLeaderEpoch else t0.CommittedLeaderEpoch) t0.CommittedLeaderEpoch,
    Metadata := upto k 3 (y.Metadata) t0.Metadata,
    ErrorCode := upto k 4 (y.ErrorCode) t0.ErrorCode }

theorem OffsetFetchResponsePartition9.sim (v : Int16) (t0 : OffsetFetchResponsePartition9) : Sim (OffsetFetchResponsePartition9.overAt v 0 · t0) (OffsetFetchResponsePartition9.overAt v 5 · t0) (OffsetFetchResponsePartition9.decode v) :=
  ((.field fun _ _ => rfl) : Sim (OffsetFetchResponsePartition9.overAt v 0 · t0) (OffsetFetchResponsePartition9.overAt v 1 · t0) _)
    |>.andThen ((.field fun _ _ => rfl) : Sim (OffsetFetchResponsePartition9.overAt v 1 · t0) (OffsetFetchResponsePartition9.overAt v 2 · t0) _)
    |>.andThen ((.onlyIf (fun hc => .field fun _ _ => by simp only [OffsetFetchResponsePartition9.overAt, if_pos hc]; rfl) fun hc _ => by simp only [OffsetFetchResponsePartition9.overAt, if_neg hc]; rfl) : Sim (OffsetFetchResponsePartition9.overAt v 2 · t0) (OffsetFetchResponsePartition9.overAt v 3 · t0) _)
    |>.andThen ((.field fun _ _ => rfl) : Sim (OffsetFetchResponsePartition9.overAt v 3 · t0) (OffsetFetchResponsePartition9.overAt v 4 · t0) _)
    |>.andThen ((.field fun _ _ => rfl) : Sim (OffsetFetchResponsePartition9.overAt v 4 · t0) (OffsetFetchResponsePartition9.overAt v 5 · t0) _)
theorem OffsetFetchResponsePartition9.reusable : OffsetFetchResponsePartition9.reuse.Holds OffsetFetchResponsePartition9.layout where
  decode v t0 d := by
    have h := OffsetFetchResponsePartition9.sim v t0 {} d
    have e : OffsetFetchResponsePartition9.overAt v 0 {} t0 = t0 := by first | rfl | (simp only [OffsetFetchResponsePartition9.overAt, upto_zero, Option.none_or, ite_self] <;> rfl)
    simp only [e] at h
    exact h
  same v y t0 h := (app_congr (app_congr (app_congr (app_congr rfl rfl) (again_opt Wire.int32 y.CommittedLeaderEpoch t0.CommittedLeaderEpoch)) rfl) rfl)
  stale _ _ h := h.elim

/-- What `t0` becomes where a new `OffsetFetchResponseTopic9` becomes `y`. -/
def OffsetFetchResponseTopic9.over (_version : Int16) (y t0 : OffsetFetchResponseTopic9) : OffsetFetchResponseTopic9 :=
  { Name := y.Name,
    Partitions := y.Partitions.or t0.Partitions }

/-- An array of structures is nil. -/
def OffsetFetchResponseTopic9.Nulls (_version : Int16) (y : OffsetFetchResponseTopic9) : Prop :=
  y.Partitions = none

/-- `OffsetFetchResponseTopic9` in use again. -/
def OffsetFetchResponseTopic9.reuse : Reuse OffsetFetchResponseTopic9.type := { over := OffsetFetchResponseTopic9.over, Nulls := OffsetFetchResponseTopic9.Nulls }

/-- The same after the first `k` statements of `Decode`. -/
def OffsetFetchResponseTopic9.overAt (_version : Int16) (k : Nat) (y t0 : OffsetFetchResponseTopic9) : OffsetFetchResponseTopic9 :=
  { Name := upto k 0 (y.Name) t0.Name,
    Partitions := y.Partitions.or t0.Partitions }

theorem OffsetFetchResponseTopic9.sim (v : Int16) (t0 : OffsetFetchResponseTopic9) : Sim (OffsetFetchResponseTopic9.overAt v 0 · t0) (OffsetFetchResponseTopic9.overAt v 2 · t0) (OffsetFetchResponseTopic9.decode v) :=
  ((.field fun _ _ => rfl) : Sim (OffsetFetchResponseTopic9.overAt v 0 · t0) (OffsetFetchResponseTopic9.overAt v 1 · t0) _)
    |>.andThen ((.structs (fun _ _ => rfl) fun _ => rfl) : Sim (OffsetFetchResponseTopic9.overAt v 1 · t0) (OffsetFetchResponseTopic9.overAt v 2 · t0) _)
theorem OffsetFetchResponseTopic9.reusable : OffsetFetchResponseTopic9.reuse.Holds OffsetFetchResponseTopic9.layout where
  decode v t0 d := by
    have h := OffsetFetchResponseTopic9.sim v t0 {} d
    have e : OffsetFetchResponseTopic9.overAt v 0 {} t0 = t0 := by first | rfl | (simp only [OffsetFetchResponseTopic9.overAt, upto_zero, Option.none_or, ite_self] <;> rfl)
    simp only [e] at h
    exact h
  same v y t0 h := (app_congr rfl (same_or fun hn => h (hn)))
  stale v y h := by
    obtain h := h
    · exact ⟨({ Partitions := some [{}] } : OffsetFetchResponseTopic9), (app_ne_right rfl (stale_or h))⟩

/-- What `t0` becomes where a new `OffsetFetchResponse` becomes `y`. -/
def OffsetFetchResponse.over (version : Int16) (y t0 : OffsetFetchResponse) : OffsetFetchResponse :=
  { ThrottleTimeMs := if version ≥ 3 then y.ThrottleTimeMs else t0.ThrottleTimeMs,
    Topics := y.Topics.or t0.Topics,
    ErrorCode := if version ≥ 2 then y.ErrorCode else t0.ErrorCode }

/-- An array of structures is nil. -/
def OffsetFetchResponse.Nulls (_version : Int16) (y : OffsetFetchResponse) : Prop :=
  y.Topics = none

/-- `OffsetFetchResponse` in use again. -/
def OffsetFetchResponse.reuse : Reuse OffsetFetchResponse.type := { over := OffsetFetchResponse.over, Nulls := OffsetFetchResponse.Nulls }

/-- The same after the first `k` statements of `Decode`. -/
def OffsetFetchResponse.overAt (version : Int16) (k : Nat) (y t0 : OffsetFetchResponse) : OffsetFetchResponse :=
  { ThrottleTimeMs := upto k 0 (if version ≥ 3 then y.ThrottleTimeMs else t0.ThrottleTimeMs) t0.ThrottleTimeMs,
    Topics := y.Topics.or t0.Topics,
    ErrorCode := upto k 2 (if version ≥ 2 then y.ErrorCode else t0.ErrorCode) t0.ErrorCode }

theorem OffsetFetchResponse.sim (v : Int16) (t0 : OffsetFetchResponse) : Sim (OffsetFetchResponse.overAt v 0 · t0) (OffsetFetchResponse.overAt v 3 · t0) (OffsetFetchResponse.decode v) :=
  ((.onlyIf (fun hc => .field fun _ _ => by simp only [OffsetFetchResponse.overAt, if_pos hc]; rfl) fun hc _ => by simp only [OffsetFetchResponse.overAt, if_neg hc]; rfl) : Sim (OffsetFetchResponse.overAt v 0 · t0) (OffsetFetchResponse.overAt v 1 · t0) _)
    |>.andThen ((.structs (fun _ _ => rfl) fun _ => rfl) : Sim (OffsetFetchResponse.overAt v 1 · t0) (OffsetFetchResponse.overAt v 2 · t0) _)
    |>.andThen ((.onlyIf (fun hc => .field fun _ _ => by simp only [OffsetFetchResponse.overAt, if_pos hc]; rfl) fun hc _ => by simp only [OffsetFetchResponse.overAt, if_neg hc]; rfl) : Sim (OffsetFetchResponse.overAt v 2 · t0) (OffsetFetchResponse.overAt v 3 · t0) _)
theorem OffsetFetchResponse.reusable : OffsetFetchResponse.reuse.Holds OffsetFetchResponse.layout where
  decode v t0 d := by
    have h := OffsetFetchResponse.sim v t0 {} d
    have e : OffsetFetchResponse.overAt v 0 {} t0 = t0 := by first | rfl | (simp only [OffsetFetchResponse.overAt, upto_zero, Option.none_or, ite_self] <;> rfl)
    simp only [e] at h
    exact h
  same v y t0 h := (app_congr (app_congr (again_opt Wire.int32 y.ThrottleTimeMs t0.ThrottleTimeMs) (same_or fun hn => h (hn))) (again_opt Wire.int16 y.ErrorCode t0.ErrorCode))
  stale v y h := by
    obtain h := h
    · exact ⟨({ Topics := some [{}] } : OffsetFetchResponse), (app_ne_left (app_ne_right (again_opt Wire.int32 y.ThrottleTimeMs 0) (stale_or h)) (again_opt Wire.int16 y.ErrorCode 0))⟩

/-- The structures of the OffsetFetch messages. -/
def reuseOffsetFetch : List (Σ (M : MsgType) (_ : Layout M), Reuse M) :=
  [⟨OffsetFetchRequest.type, OffsetFetchRequest.layout, OffsetFetchRequest.reuse⟩,
   ⟨OffsetFetchRequestTopic9.type, OffsetFetchRequestTopic9.layout, OffsetFetchRequestTopic9.reuse⟩,
   ⟨OffsetFetchResponse.type, OffsetFetchResponse.layout, OffsetFetchResponse.reuse⟩,
   ⟨OffsetFetchResponseTopic9.type, OffsetFetchResponseTopic9.layout, OffsetFetchResponseTopic9.reuse⟩,
   ⟨OffsetFetchResponsePartition9.type, OffsetFetchResponsePartition9.layout, OffsetFetchResponsePartition9.reuse⟩]
theorem reuseOffsetFetch_holds : ∀ p ∈ reuseOffsetFetch, p.2.2.Holds p.2.1 := by
  unfold reuseOffsetFetch
  simp only [List.forall_mem_cons]
  exact ⟨OffsetFetchRequest.reusable, OffsetFetchRequestTopic9.reusable, OffsetFetchResponse.reusable, OffsetFetchResponseTopic9.reusable, OffsetFetchResponsePartition9.reusable, fun _ h => absurd h (by simp)⟩

end Kafka.Msg
