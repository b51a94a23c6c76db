import Verif.Message.Reuse
import Verif.Gen.Spec.WriteTxnMarkers
/-!
Generated by tools/gen_messages.py: decoding into WriteTxnMarkers messages used before.
-/
set_option linter.unusedSimpArgs false
set_option linter.unusedVariables false
namespace Kafka.Msg

/-- What `t0` becomes where a new `WritableTxnMarkerTopic27` becomes `y`. -/
def WritableTxnMarkerTopic27.over (_version : Int16) (y _t0 : WritableTxnMarkerTopic27) : WritableTxnMarkerTopic27 :=
  { Name := y.Name,
    PartitionIndexes := y.PartitionIndexes }

/-- An array of structures is nil. -/
def WritableTxnMarkerTopic27.Nulls (_version : Int16) (_y : WritableTxnMarkerTopic27) : Prop :=
  False

/-- `WritableTxnMarkerTopic27` in use again. -/
def WritableTxnMarkerTopic27.reuse : Reuse WritableTxnMarkerTopic27.type := { over := WritableTxnMarkerTopic27.over, Nulls := WritableTxnMarkerTopic27.Nulls }

/-- The same after the first `k` statements of `Decode`. -/
def WritableTxnMarkerTopic27.overAt (_version : Int16) (k : Nat) (y t0 : WritableTxnMarkerTopic27) : WritableTxnMarkerTopic27 :=
  { Name := upto k 0 (y.Name) t0.Name,
    PartitionIndexes := upto k 1 (y.PartitionIndexes) t0.PartitionIndexes }

theorem WritableTxnMarkerTopic27.sim (v : Int16) (t0 : WritableTxnMarkerTopic27) : Sim (WritableTxnMarkerTopic27.overAt v 0 · t0) (WritableTxnMarkerTopic27.overAt v 2 · t0) (WritableTxnMarkerTopic27.decode v) :=
  ((.field fun _ _ => rfl) : Sim (WritableTxnMarkerTopic27.overAt v 0 · t0) (WritableTxnMarkerTopic27.overAt v 1 · t0) _)
    |>.andThen ((.field fun _ _ => rfl) : Sim (WritableTxnMarkerTopic27.overAt v 1 · t0) (WritableTxnMarkerTopic27.overAt v 2 · t0) _)
theorem WritableTxnMarkerTopic27.reusable : WritableTxnMarkerTopic27.reuse.Holds WritableTxnMarkerTopic27.layout where
  decode v t0 d := by
    have h := WritableTxnMarkerTopic27.sim v t0 {} d
    have e : WritableTxnMarkerTopic27.overAt v 0 {} t0 = t0 := by first | rfl | (simp only [WritableTxnMarkerTopic27.overAt, upto_zero, Option.none_or, ite_self] <;> rfl)
    simp only [e] at h
    exact h
  same v y t0 _h := (app_congr rfl rfl)
  stale _ _ h := h.elim

/-- What `t0` becomes where a new `WritableTxnMarker27` becomes `y`. -/
def WritableTxnMarker27.over (_version : Int16) (y t0 : WritableTxnMarker27) : WritableTxnMarker27 :=
  { ProducerId := y.ProducerId,
    ProducerEpoch := y.ProducerEpoch,
    TransactionResult := y.TransactionResult,
    Topics := y.Topics.or t0.Topics,
    CoordinatorEpoch := y.CoordinatorEpoch }

/-- An array of structures is nil. -/
def WritableTxnMarker27.Nulls (_version : Int16) (y : WritableTxnMarker27) : Prop :=
  y.Topics = none

/-- `WritableTxnMarker27` in use again. -/
def WritableTxnMarker27.reuse : Reuse WritableTxnMarker27.type := { over := WritableTxnMarker27.over, Nulls := WritableTxnMarker27.Nulls }

/-- The same after the first `k` statements of `Decode`. -/
def WritableTxnMarker27.overAt (_version : Int16) (k : Nat) (y t0 : WritableTxnMarker27) : WritableTxnMarker27 :=
  { ProducerId := upto k 0 (y.ProducerId) t0.ProducerId,
    ProducerEpoch := upto k 1 (y.ProducerEpoch) t0.ProducerEpoch,
    TransactionResult := upto k 2 (y.TransactionResult) t0.TransactionResult,
    Topics := y.Topics.or t0.Topics,
    CoordinatorEpoch := upto k 4 (y.CoordinatorEpoch) t0.CoordinatorEpoch }

theorem WritableTxnMarker27.sim (v : Int16) (t0 : WritableTxnMarker27) : Sim (WritableTxnMarker27.overAt v 0 · t0) (WritableTxnMarker27.overAt v 5 · t0) (WritableTxnMarker27.decode v) :=
  ((.field fun _ _ => rfl) : Sim (WritableTxnMarker27.overAt v 0 · t0) (WritableTxnMarker27.overAt v 1 · t0) _)
    |>.andThen ((.field fun _ _ => rfl) : Sim (WritableTxnMarker27.overAt v 1 · t0) (WritableTxnMarker27.overAt v 2 · t0) _)
    |>.andThen ((.field fun _ _ => rfl) : Sim (WritableTxnMarker27.overAt v 2 · t0) (WritableTxnMarker27.overAt v 3 · t0) _)
    |>.andThen ((.structs (fun _ _ => rfl) fun _ => rfl) : Sim (WritableTxnMarker27.overAt v 3 · t0) (WritableTxnMarker27.overAt v 4 · t0) _)
    |>.andThen ((.field fun _ _ => rfl) : Sim (WritableTxnMarker27.overAt v 4 · t0) (WritableTxnMarker27.overAt v 5 · t0) _)
theorem WritableTxnMarker27.reusable : WritableTxnMarker27.reuse.Holds WritableTxnMarker27.layout where
  decode v t0 d := by
    have h := WritableTxnMarker27.sim v t0 {} d
    have e : WritableTxnMarker27.overAt v 0 {} t0 = t0 := by first | rfl | (simp only [WritableTxnMarker27.overAt, upto_zero, Option.none_or, ite_self] <;> rfl)
    simp only [e] at h
    exact h
  same v y t0 h := (app_congr (app_congr (app_congr (app_congr rfl rfl) rfl) (same_or fun hn => h (hn))) rfl)
  stale v y h := by
    obtain h := h
    · exact ⟨({ Topics := some [{}] } : WritableTxnMarker27), (app_ne_left (app_ne_right (app_congr (app_congr rfl rfl) rfl) (stale_or h)) rfl)⟩

/-- What `t0` becomes where a new `WriteTxnMarkersRequest` becomes `y`. -/
def WriteTxnMarkersRequest.over (_version : Int16) (y t0 : WriteTxnMarkersRequest) : WriteTxnMarkersRequest :=
  { Markers := y.Markers.or t0.Markers }

/-- An array of structures is nil. -/
def WriteTxnMarkersRequest.Nulls (_version : Int16) (y : WriteTxnMarkersRequest) : Prop :=
  y.Markers = none

/-- `WriteTxnMarkersRequest` in use again. -/
def WriteTxnMarkersRequest.reuse : Reuse WriteTxnMarkersRequest.type := { over := WriteTxnMarkersRequest.over, Nulls := WriteTxnMarkersRequest.Nulls }

/-- The same after the first `k` statements of `Decode`. -/
def WriteTxnMarkersRequest.overAt (_version : Int16) (_k : Nat) (y t0 : WriteTxnMarkersRequest) : WriteTxnMarkersRequest :=
  { Markers := y.Markers.or t0.Markers }

theorem WriteTxnMarkersRequest.sim (v : Int16) (t0 : WriteTxnMarkersRequest) : Sim (WriteTxnMarkersRequest.overAt v 0 · t0) (WriteTxnMarkersRequest.overAt v 1 · t0) (WriteTxnMarkersRequest.decode v) :=
  ((.structs (fun _ _ => rfl) fun _ => rfl) : Sim (WriteTxnMarkersRequest.overAt v 0 · t0) (WriteTxnMarkersRequest.overAt v 1 · t0) _)
theorem WriteTxnMarkersRequest.reusable : WriteTxnMarkersRequest.reuse.Holds WriteTxnMarkersRequest.layout where
  decode v t0 d := by
    have h := WriteTxnMarkersRequest.sim v t0 {} d
    have e : WriteTxnMarkersRequest.overAt v 0 {} t0 = t0 := by first | rfl | (simp only [WriteTxnMarkersRequest.overAt, upto_zero, Option.none_or, ite_self] <;> rfl)
    simp only [e] at h
    exact h
  same v y t0 h := (same_or fun hn => h (hn))
  stale v y h := by
    obtain h := h
    · exact ⟨({ Markers := some [{}] } : WriteTxnMarkersRequest), (stale_or h)⟩

/-- What `t0` becomes where a new `WritableTxnMarkerPartitionResult27` becomes `y`. -/
def WritableTxnMarkerPartitionResult27.over (_version : Int16) (y _t0 : WritableTxnMarkerPartitionResult27) : WritableTxnMarkerPartitionResult27 :=
  { PartitionIndex := y.PartitionIndex,
    ErrorCode := y.ErrorCode }

/-- An array of structures is nil. -/
def WritableTxnMarkerPartitionResult27.Nulls (_version : Int16) (_y : WritableTxnMarkerPartitionResult27) : Prop :=
  False

/-- `WritableTxnMarkerPartitionResult27` in use again. -/
def WritableTxnMarkerPartitionResult27.reuse : Reuse WritableTxnMarkerPartitionResult27.type := { over := WritableTxnMarkerPartitionResult27.over, Nulls := WritableTxnMarkerPartitionResult27.Nulls }

/-- The same after the first `k` statements of `Decode`. -/
def WritableTxnMarkerPartitionResult27.overAt (_version : Int16) (k : Nat) (y t0 : WritableTxnMarkerPartitionResult27) : WritableTxnMarkerPartitionResult27 :=
  { PartitionIndex := upto k 0 (y.PartitionIndex) t0.PartitionIndex,
    ErrorCode := upto k 1 (y.ErrorCode) t0.ErrorCode }

theorem WritableTxnMarkerPartitionResult27.sim (v : Int16) (t0 : WritableTxnMarkerPartitionResult27) : Sim (WritableTxnMarkerPartitionResult27.overAt v 0 · t0) (WritableTxnMarkerPartitionResult27.overAt v 2 · t0) (WritableTxnMarkerPartitionResult27.decode v) :=
  ((.field fun _ _ => rfl) : Sim (WritableTxnMarkerPartitionResult27.overAt v 0 · t0) (WritableTxnMarkerPartitionResult27.overAt v 1 · t0) _)
    |>.andThen ((.field fun _ _ => rfl) : Sim (WritableTxnMarkerPartitionResult27.overAt v 1 · t0) (WritableTxnMarkerPartitionResult27.overAt v 2 · t0) _)
theorem WritableTxnMarkerPartitionResult27.reusable : WritableTxnMarkerPartitionResult27.reuse.Holds WritableTxnMarkerPartitionResult27.layout where
  decode v t0 d := by
    have h := WritableTxnMarkerPartitionResult27.sim v t0 {} d
    have e : WritableTxnMarkerPartitionResult27.overAt v 0 {} t0 = t0 := by first | rfl | (simp only [WritableTxnMarkerPartitionResult27.overAt, upto_zero, Option.none_or, ite_self] <;> rfl)
    simp only [e] at h
    exact h
  same v y t0 _h := (app_congr rfl rfl)
  stale _ _ h := h.elim

/-- What `t0` becomes where a new `WritableTxnMarkerTopicResult27` becomes `y`. -/
def WritableTxnMarkerTopicResult27.over (_version : Int16) (y t0 : WritableTxnMarkerTopicResult27) : WritableTxnMarkerTopicResult27 :=
  { Name := y.Name,
    Partitions := y.Partitions.or t0.Partitions }

/-- An array of structures is nil. -/
def WritableTxnMarkerTopicResult27.Nulls (_version : Int16) (y : WritableTxnMarkerTopicResult27) : Prop :=
  y.Partitions = none

/-- `WritableTxnMarkerTopicResult27` in use again. -/
def WritableTxnMarkerTopicResult27.reuse : Reuse WritableTxnMarkerTopicResult27.type := { over := WritableTxnMarkerTopicResult27.over, Nulls := WritableTxnMarkerTopicResult27.Nulls }

/-- The same after the first `k` statements of `Decode`. -/
def WritableTxnMarkerTopicResult27.overAt (_version : Int16) (k : Nat) (y t0 : WritableTxnMarkerTopicResult27) : WritableTxnMarkerTopicResult27 :=
  { Name := upto k 0 (y.Name) t0.Name,
    Partitions := y.Partitions.or t0.Partitions }

theorem WritableTxnMarkerTopicResult27.sim (v : Int16) (t0 : WritableTxnMarkerTopicResult27) : Sim (WritableTxnMarkerTopicResult27.overAt v 0 · t0) (WritableTxnMarkerTopicResult27.overAt v 2 · t0) (WritableTxnMarkerTopicResult27.decode v) :=
  ((.field fun _ _ => rfl) : Sim (WritableTxnMarkerTopicResult27.overAt v 0 · t0) (WritableTxnMarkerTopicResult27.overAt v 1 · t0) _)
    |>.andThen ((.structs (fun _ _ => rfl) fun _ => rfl) : Sim (WritableTxnMarkerTopicResult27.overAt v 1 · t0) (WritableTxnMarkerTopicResult27.overAt v 2 · t0) _)
theorem WritableTxnMarkerTopicResult27.reusable : WritableTxnMarkerTopicResult27.reuse.Holds WritableTxnMarkerTopicResult27.layout where
  decode v t0 d := by
    have h := WritableTxnMarkerTopicResult27.sim v t0 {} d
    have e : WritableTxnMarkerTopicResult27.overAt v 0 {} t0 = t0 := by first | rfl | (simp only [WritableTxnMarkerTopicResult27.overAt, upto_zero, Option.none_or, ite_self] <;> rfl)
    simp only [e] at h
    exact h
  same v y t0 h := (app_congr rfl (same_or fun hn => h (hn)))
  stale v y h := by
    obtain h := h
    · exact ⟨({ Partitions := some [{}] } : WritableTxnMarkerTopicResult27), (app_ne_right rfl (stale_or h))⟩

/-- What `t0` becomes where a new `WritableTxnMarkerResult27` becomes `y`. -/
def WritableTxnMarkerResult27.over (_version : Int16) (y t0 : WritableTxnMarkerResult27) : WritableTxnMarkerResult27 :=
  { ProducerId := y.ProducerId,
    Topics := y.Topics.or t0.Topics }

/-- An array of structures is nil. -/
def WritableTxnMarkerResult27.Nulls (_version : Int16) (y : WritableTxnMarkerResult27) : Prop :=
  y.Topics = none

/-- `WritableTxnMarkerResult27` in use again. -/
def WritableTxnMarkerResult27.reuse : Reuse WritableTxnMarkerResult27.type := { over := WritableTxnMarkerResult27.over, Nulls := WritableTxnMarkerResult27.Nulls }

/-- The same after the first `k` statements of `Decode`. -/
def WritableTxnMarkerResult27.overAt (_version : Int16) (k : Nat) (y t0 : WritableTxnMarkerResult27) : WritableTxnMarkerResult27 :=
  { ProducerId := upto k 0 (y.ProducerId) t0.ProducerId,
    Topics := y.Topics.or t0.Topics }

theorem WritableTxnMarkerResult27.sim (v : Int16) (t0 : WritableTxnMarkerResult27) : Sim (WritableTxnMarkerResult27.overAt v 0 · t0) (WritableTxnMarkerResult27.overAt v 2 · t0) (WritableTxnMarkerResult27.decode v) :=
  ((.field fun _ _ => rfl) : Sim (WritableTxnMarkerResult27.overAt v 0 · t0) (WritableTxnMarkerResult27.overAt v 1 · t0) _)
    |>.andThen ((.structs (fun _ _ => rfl) fun _ => rfl) : Sim (WritableTxnMarkerResult27.overAt v 1 · t0) (WritableTxnMarkerResult27.overAt v 2 · t0) _)
theorem WritableTxnMarkerResult27.reusable : WritableTxnMarkerResult27.reuse.Holds WritableTxnMarkerResult27.layout where
  decode v t0 d := by
    have h := WritableTxnMarkerResult27.sim v t0 {} d
    have e : WritableTxnMarkerResult27.overAt v 0 {} t0 = t0 := by first | rfl | (simp only [WritableTxnMarkerResult27.overAt, upto_zero, Option.none_or, ite_self] <;> rfl)
    simp only [e] at h
    exact h
  same v y t0 h := (app_congr rfl (same_or fun hn => h (hn)))
  stale v y h := by
    obtain h := h
    · exact ⟨({ Topics := some [{}] } : WritableTxnMarkerResult27), (app_ne_right rfl (stale_or h))⟩

/-- What `t0` becomes where a new `WriteTxnMarkersResponse` becomes `y`. -/
def WriteTxnMarkersResponse.over (_version : Int16) (y t0 : WriteTxnMarkersResponse) : WriteTxnMarkersResponse :=
  { Markers := y.Markers.or t0.Markers }

/-- An array of structures is nil. -/
def WriteTxnMarkersResponse.Nulls (_version : Int16) (y : WriteTxnMarkersResponse) : Prop :=
  y.Markers = none

/-- `WriteTxnMarkersResponse` in use again. -/
def WriteTxnMarkersResponse.reuse : Reuse WriteTxnMarkersResponse.type := { over := WriteTxnMarkersResponse.over, Nulls := WriteTxnMarkersResponse.Nulls }

/-- The same after the first `k` statements of `Decode`. -/
def WriteTxnMarkersResponse.overAt (_version : Int16) (_k : Nat) (y t0 : WriteTxnMarkersResponse) : WriteTxnMarkersResponse :=
  { Markers := y.Markers.or t0.Markers }

theorem WriteTxnMarkersResponse.sim (v : Int16) (t0 : WriteTxnMarkersResponse) : Sim (WriteTxnMarkersResponse.overAt v 0 · t0) (WriteTxnMarkersResponse.overAt v 1 · t0) (WriteTxnMarkersResponse.decode v) :=
  ((.structs (fun _ _ => rfl) fun _ => rfl) : Sim (WriteTxnMarkersResponse.overAt v 0 · t0) (WriteTxnMarkersResponse.overAt v 1 · t0) _)
theorem WriteTxnMarkersResponse.reusable : WriteTxnMarkersResponse.reuse.Holds WriteTxnMarkersResponse.layout where
  decode v t0 d := by
    have h := WriteTxnMarkersResponse.sim v t0 {} d
    have e : WriteTxnMarkersResponse.overAt v 0 {} t0 = t0 := by first | rfl | (simp only [WriteTxnMarkersResponse.overAt, upto_zero, Option.none_or, ite_self] <;> rfl)
    simp only [e] at h
    exact h
  same v y t0 h := (same_or fun hn => h (hn))
  stale v y h := by
    obtain h := h
    · exact ⟨({ Markers := some [{}] } : WriteTxnMarkersResponse), (stale_or h)⟩

/-- The structures of the WriteTxnMarkers messages. -/
def reuseWriteTxnMarkers : List (Σ (M : MsgType) (_ : Layout M), Reuse M) :=
  [⟨WriteTxnMarkersRequest.type, WriteTxnMarkersRequest.layout, WriteTxnMarkersRequest.reuse⟩,
   ⟨WritableTxnMarker27.type, WritableTxnMarker27.layout, WritableTxnMarker27.reuse⟩,
   ⟨WritableTxnMarkerTopic27.type, WritableTxnMarkerTopic27.layout, WritableTxnMarkerTopic27.reuse⟩,
   ⟨WriteTxnMarkersResponse.type, WriteTxnMarkersResponse.layout, WriteTxnMarkersResponse.reuse⟩,
   ⟨WritableTxnMarkerResult27.type, WritableTxnMarkerResult27.layout, WritableTxnMarkerResult27.reuse⟩,
   ⟨WritableTxnMarkerTopicResult27.type, WritableTxnMarkerTopicResult27.layout, WritableTxnMarkerTopicResult27.reuse⟩,
   ⟨WritableTxnMarkerPartitionResult27.type, WritableTxnMarkerPartitionResult27.layout, WritableTxnMarkerPartitionResult27.reuse⟩]
theorem reuseWriteTxnMarkers_holds : ∀ p ∈ reuseWriteTxnMarkers, p.2.2.Holds p.2.1 := by
  unfold reuseWriteTxnMarkers
  simp only [List.forall_mem_cons]
  exact ⟨WriteTxnMarkersRequest.reusable, WritableTxnMarker27.reusable, WritableTxnMarkerTopic27.reusable, WriteTxnMarkersResponse.reusable, WritableTxnMarkerResult27.reusable, WritableTxnMarkerTopicResult27.reusable, WritableTxnMarkerPartitionResult27.reusable, fun _ h => absurd h (by simp)⟩

end Kafka.Msg
