import Verif.Message.Reuse
import Verif.Gen.Spec.LeaderAndIsr
/-!
Generated by tools/gen_messages.py: decoding into LeaderAndIsr messages used before.
-/
set_option linter.unusedSimpArgs false
set_option linter.unusedVariables false
namespace Kafka.Msg

/-- What `t0` becomes where a new `LeaderAndIsrPartitionState4` becomes `y`. -/
def LeaderAndIsrPartitionState4.over (version : Int16) (y t0 : LeaderAndIsrPartitionState4) : LeaderAndIsrPartitionState4 :=
  { TopicName := if version ≥ 0 ∧ version ≤ 1 then y.TopicName else t0.TopicName,
    PartitionIndex := y.PartitionIndex,
    ControllerEpoch := y.ControllerEpoch,
    Leader := y.Leader,
    LeaderEpoch := y.LeaderEpoch,
    Isr := y.Isr,
    ZkVersion := y.ZkVersion,
    Replicas := y.Replicas,
    AddingReplicas := if version ≥ 3 then y.AddingReplicas else t0.AddingReplicas,
    RemovingReplicas := if version ≥ 3 then y.RemovingReplicas else t0.RemovingReplicas,
    IsNew := if version ≥ 1 then y.IsNew else t0.IsNew }

/-- An array of structures is nil. -/
def LeaderAndIsrPartitionState4.Nulls (_version : Int16) (_y : LeaderAndIsrPartitionState4) : Prop :=
  False

/-- `LeaderAndIsrPartitionState4` in use again. -/
def LeaderAndIsrPartitionState4.reuse : Reuse LeaderAndIsrPartitionState4.type := { over := LeaderAndIsrPartitionState4.over, Nulls := LeaderAndIsrPartitionState4.Nulls }

/-- The same after the first `k` statements of `Decode`. -/
def LeaderAndIsrPartitionState4.overAt (version : Int16) (k : Nat) (y t0 : LeaderAndIsrPartitionState4) : LeaderAndIsrPartitionState4 :=
  { TopicName := upto k 0 (if version ≥ 0 ∧ version ≤ 1 then y.TopicName else t0.TopicName) t0.TopicName,
    PartitionIndex := upto k 1 (y.PartitionIndex) t0.PartitionIndex,
    ControllerEpoch := upto k 2 (y.ControllerEpoch) t0.ControllerEpoch,
    Leader := upto k 3 (y.Leader) t0.Leader,
    LeaderEpoch := upto k 4 (y.LeaderEpoch) t0.LeaderEpoch,
    Isr := upto k 5 (y.Isr) t0.Isr,
    ZkVersion := upto k 6 (y.ZkVersion) t0.ZkVersion,
    Replicas := upto k 7 (y.Replicas) t0.Replicas,
    AddingReplicas := upto k 8 (if version ≥ 3 then y.AddingReplicas else t0.AddingReplicas) t0.AddingReplicas,
    RemovingReplicas := upto k 9 (if version ≥ 3 then y.RemovingReplicas else t0.RemovingReplicas) t0.RemovingReplicas,
    IsNew := upto k 10 (if version ≥ 1 then y.IsNew else t0.IsNew) t0.IsNew }

theorem LeaderAndIsrPartitionState4.sim (v : Int16) (t0 : LeaderAndIsrPartitionState4) : Sim (LeaderAndIsrPartitionState4.overAt v 0 · t0) (LeaderAndIsrPartitionState4.overAt v 11 · t0) (LeaderAndIsrPartitionState4.decode v) :=
  ((.onlyIf (fun hc => .field fun _ _ => by simp only [LeaderAndIsrPartitionState4.overAt, if_pos hc]; rfl) fun hc _ => by simp only [LeaderAndIsrPartitionState4.overAt, if_neg hc]; rfl) : Sim (LeaderAndIsrPartitionState4.overAt v 0 · t0) (LeaderAndIsrPartitionState4.overAt v 1 · t0) _)
    |>.andThen ((.field fun _ _ => rfl) : Sim (LeaderAndIsrPartitionState4.overAt v 1 · t0) (LeaderAndIsrPartitionState4.overAt v 2 · t0) _)
    |>.andThen ((.field fun _ _ => rfl) : Sim (LeaderAndIsrPartitionState4.overAt v 2 · t0) (LeaderAndIsrPartitionState4.overAt v 3 · t0) _)
    |>.andThen ((.field fun _ _ => rfl) : Sim (LeaderAndIsrPartitionState4.overAt v 3 · t0) (LeaderAndIsrPartitionState4.overAt v 4 · t0) _)
    |>.andThen ((.field fun _ _ => rfl) : Sim (LeaderAndIsrPartitionState4.overAt v 4 · t0) (LeaderAndIsrPartitionState4.overAt v 5 · t0) _)
    |>.andThen ((.field fun _ _ => rfl) : Sim (LeaderAndIsrPartitionState4.overAt v 5 · t0) (LeaderAndIsrPartitionState4.overAt v 6 · t0) _)
    |>.andThen ((.field fun _ _ => rfl) : Sim (LeaderAndIsrPartitionState4.overAt v 6 · t0) (LeaderAndIsrPartitionState4.overAt v 7 · t0) _)
    |>.andThen ((.field fun _ _ => rfl) : Sim (LeaderAndIsrPartitionState4.overAt v 7 · t0) (LeaderAndIsrPartitionState4.overAt v 8 · t0) _)
    |>.andThen ((.onlyIf (fun hc => .field fun _ _ => by simp only [LeaderAndIsrPartitionState4.overAt, if_pos hc]; rfl) fun hc _ => by simp only [LeaderAndIsrPartitionState4.overAt, if_neg hc]; rfl) : Sim (LeaderAndIsrPartitionState4.overAt v 8 · t0) (LeaderAndIsrPartitionState4.overAt v 9 · t0) _)
    |>.andThen ((.onlyIf (fun hc => .field fun _ _ => by simp only [LeaderAndIsrPartitionState4.overAt, if_pos hc]; rfl) fun hc _ => by simp only [LeaderAndIsrPartitionState4.overAt, if_neg hc]; rfl) : Sim (LeaderAndIsrPartitionState4.overAt v 9 · t0) (LeaderAndIsrPartitionState4.overAt v 10 · t0) _)
    |>.andThen ((.onlyIf (fun hc => .field fun _ _ => by simp only [LeaderAndIsrPartitionState4.overAt, if_pos hc]; rfl) fun hc _ => by simp only [LeaderAndIsrPartitionState4.overAt, if_neg hc]; rfl) : Sim (LeaderAndIsrPartitionState4.overAt v 10 · t0) (LeaderAndIsrPartitionState4.overAt v 11 · t0) _)
theorem LeaderAndIsrPartitionState4.reusable : LeaderAndIsrPartitionState4.reuse.Holds LeaderAndIsrPartitionState4.layout where
  decode v t0 d := by
    have h := LeaderAndIsrPartitionState4.sim v t0 {} d
    have e : LeaderAndIsrPartitionState4.overAt v 0 {} t0 = t0 := by first | rfl | (simp only [LeaderAndIsrPartitionState4.overAt, upto_zero, Option.none_or, ite_self] <;> rfl)
    simp only [e] at h
    exact h
  same v y t0 _h := (app_congr (app_congr (app_congr (app_congr (app_congr (app_congr (app_congr (app_congr (app_congr (app_congr (again_opt Wire.string y.TopicName t0.TopicName) rfl) rfl) rfl) rfl) rfl) rfl) rfl) (again_opt Wire.int32Array y.AddingReplicas t0.AddingReplicas)) (again_opt Wire.int32Array y.RemovingReplicas t0.RemovingReplicas)) (again_opt Wire.bool y.IsNew t0.IsNew))
  stale _ _ h := h.elim

/-- What `t0` becomes where a new `LeaderAndIsrTopicState4` becomes `y`. -/
def LeaderAndIsrTopicState4.over (version : Int16) (y t0 : LeaderAndIsrTopicState4) : LeaderAndIsrTopicState4 :=
  { TopicName := if version ≥ 2 then y.TopicName else t0.TopicName,
    PartitionStates := if version ≥ 2 then y.PartitionStates.or t0.PartitionStates else t0.PartitionStates }

/-- An array of structures is nil. -/
def LeaderAndIsrTopicState4.Nulls (version : Int16) (y : LeaderAndIsrTopicState4) : Prop :=
  (version ≥ 2) ∧ y.PartitionStates = none

/-- `LeaderAndIsrTopicState4` in use again. -/
def LeaderAndIsrTopicState4.reuse : Reuse LeaderAndIsrTopicState4.type := { over := LeaderAndIsrTopicState4.over, Nulls := LeaderAndIsrTopicState4.Nulls }

/-- The same after the first `k` statements of `Decode`. -/
def LeaderAndIsrTopicState4.overAt (version : Int16) (k : Nat) (y t0 : LeaderAndIsrTopicState4) : LeaderAndIsrTopicState4 :=
  { TopicName := upto k 0 (if version ≥ 2 then y.TopicName else t0.TopicName) t0.TopicName,
    PartitionStates := if version ≥ 2 then y.PartitionStates.or t0.PartitionStates else t0.PartitionStates }

theorem LeaderAndIsrTopicState4.sim (v : Int16) (t0 : LeaderAndIsrTopicState4) : Sim (LeaderAndIsrTopicState4.overAt v 0 · t0) (LeaderAndIsrTopicState4.overAt v 2 · t0) (LeaderAndIsrTopicState4.decode v) :=
  ((.onlyIf (fun hc => .field fun _ _ => by simp only [LeaderAndIsrTopicState4.overAt, if_pos hc]; rfl) fun hc _ => by simp only [LeaderAndIsrTopicState4.overAt, if_neg hc]; rfl) : Sim (LeaderAndIsrTopicState4.overAt v 0 · t0) (LeaderAndIsrTopicState4.overAt v 1 · t0) _)
    |>.andThen ((.onlyIf (fun hc => .structs (fun _ _ => by simp only [LeaderAndIsrTopicState4.overAt, if_pos hc]; rfl) fun _ => by simp only [LeaderAndIsrTopicState4.overAt, if_pos hc]; rfl) fun hc _ => by simp only [LeaderAndIsrTopicState4.overAt, if_neg hc]; rfl) : Sim (LeaderAndIsrTopicState4.overAt v 1 · t0) (LeaderAndIsrTopicState4.overAt v 2 · t0) _)
theorem LeaderAndIsrTopicState4.reusable : LeaderAndIsrTopicState4.reuse.Holds LeaderAndIsrTopicState4.layout where
  decode v t0 d := by
    have h := LeaderAndIsrTopicState4.sim v t0 {} d
    have e : LeaderAndIsrTopicState4.overAt v 0 {} t0 = t0 := by first | rfl | (simp only [LeaderAndIsrTopicState4.overAt, upto_zero, Option.none_or, ite_self] <;> rfl)
    simp only [e] at h
    exact h
  same v y t0 h := (app_congr (again_opt Wire.string y.TopicName t0.TopicName) (same_when fun hc hn => h (⟨hc, hn⟩)))
  stale v y h := by
    obtain ⟨hc, h⟩ := h
    · exact ⟨({ PartitionStates := some [{}] } : LeaderAndIsrTopicState4), (app_ne_right (again_opt Wire.string y.TopicName []) (stale_when hc h))⟩

/-- What `t0` becomes where a new `LeaderAndIsrLiveLeader4` becomes `y`. -/
def LeaderAndIsrLiveLeader4.over (_version : Int16) (y _t0 : LeaderAndIsrLiveLeader4) : LeaderAndIsrLiveLeader4 :=
  { BrokerId := y.BrokerId,
    HostName := y.HostName,
    Port := y.Port }

/-- An array of structures is nil. -/
def LeaderAndIsrLiveLeader4.Nulls (_version : Int16) (_y : LeaderAndIsrLiveLeader4) : Prop :=
  False

/-- `LeaderAndIsrLiveLeader4` in use again. -/
def LeaderAndIsrLiveLeader4.reuse : Reuse LeaderAndIsrLiveLeader4.type := { over := LeaderAndIsrLiveLeader4.over, Nulls := LeaderAndIsrLiveLeader4.Nulls }

/-- The same after the first `k` statements of `Decode`. -/
def LeaderAndIsrLiveLeader4.overAt (_version : Int16) (k : Nat) (y t0 : LeaderAndIsrLiveLeader4) : LeaderAndIsrLiveLeader4 :=
  { BrokerId := upto k 0 (y.BrokerId) t0.BrokerId,
    HostName := upto k 1 (y.HostName) t0.HostName,
    Port := upto k 2 (y.Port) t0.Port }

theorem LeaderAndIsrLiveLeader4.sim (v : Int16) (t0 : LeaderAndIsrLiveLeader4) : Sim (LeaderAndIsrLiveLeader4.overAt v 0 · t0) (LeaderAndIsrLiveLeader4.overAt v 3 · t0) (LeaderAndIsrLiveLeader4.decode v) :=
  ((.field fun _ _ => rfl) : Sim (LeaderAndIsrLiveLeader4.overAt v 0 · t0) (LeaderAndIsrLiveLeader4.overAt v 1 · t0) _)
    |>.andThen ((.field fun _ _ => rfl) : Sim (LeaderAndIsrLiveLeader4.overAt v 1 · t0) (LeaderAndIsrLiveLeader4.overAt v 2 · t0) _)
    |>.andThen ((.field fun _ _ => rfl) : Sim (LeaderAndIsrLiveLeader4.overAt v 2 · t0) (LeaderAndIsrLiveLeader4.overAt v 3 · t0) _)
theorem LeaderAndIsrLiveLeader4.reusable : LeaderAndIsrLiveLeader4.reuse.Holds LeaderAndIsrLiveLeader4.layout where
  decode v t0 d := by
    have h := LeaderAndIsrLiveLeader4.sim v t0 {} d
    have e : LeaderAndIsrLiveLeader4.overAt v 0 {} t0 = t0 := by first | rfl | (simp only [LeaderAndIsrLiveLeader4.overAt, upto_zero, Option.none_or, ite_self] <;> rfl)
    simp only [e] at h
    exact h
  same v y t0 _h := (app_congr (app_congr rfl rfl) rfl)
  stale _ _ h := h.elim

/-- What `t0` becomes where a new `LeaderAndIsrRequest` becomes `y`. -/
def LeaderAndIsrRequest.over (version : Int16) (y t0 : LeaderAndIsrRequest) : LeaderAndIsrRequest :=
  { ControllerId := y.ControllerId,
    ControllerEpoch := y.ControllerEpoch,
    BrokerEpoch := if version ≥ 2 then y.BrokerEpoch else t0.BrokerEpoch,
    UngroupedPartitionStates := if version ≥ 0 ∧ version ≤ 1 then y.UngroupedPartitionStates.or t0.UngroupedPartitionStates else t0.UngroupedPartitionStates,
    TopicStates := if version ≥ 2 then y.TopicStates.or t0.TopicStates else t0.TopicStates,
    LiveLeaders := y.LiveLeaders.or t0.LiveLeaders }

/-- An array of structures is nil. -/
def LeaderAndIsrRequest.Nulls (version : Int16) (y : LeaderAndIsrRequest) : Prop :=
  (version ≥ 0 ∧ version ≤ 1) ∧ y.UngroupedPartitionStates = none ∨ (version ≥ 2) ∧ y.TopicStates = none ∨ y.LiveLeaders = none

/-- `LeaderAndIsrRequest` in use again. -/
def LeaderAndIsrRequest.reuse : Reuse LeaderAndIsrRequest.type := { over := LeaderAndIsrRequest.over, Nulls := LeaderAndIsrRequest.Nulls }

/-- The same after the first `k` statements of `Decode`. -/
def LeaderAndIsrRequest.overAt (version : Int16) (k : Nat) (y t0 : LeaderAndIsrRequest) : LeaderAndIsrRequest :=
  { ControllerId := upto k 0 (y.ControllerId) t0.ControllerId,
    ControllerEpoch := upto k 1 (y.ControllerEpoch) t0.ControllerEpoch,
    BrokerEpoch := upto k 2 (if version ≥ 2 then y.BrokerEpoch else t0.BrokerEpoch) t0.BrokerEpoch,
    UngroupedPartitionStates := if version ≥ 0 ∧ version ≤ 1 then y.UngroupedPartitionStates.or t0.UngroupedPartitionStates else t0.UngroupedPartitionStates,
    TopicStates := if version ≥ 2 then y.TopicStates.or t0.TopicStates else t0.TopicStates,
    LiveLeaders := y.LiveLeaders.or t0.LiveLeaders }

theorem LeaderAndIsrRequest.sim (v : Int16) (t0 : LeaderAndIsrRequest) : Sim (LeaderAndIsrRequest.overAt v 0 · t0) (LeaderAndIsrRequest.overAt v 6 · t0) (LeaderAndIsrRequest.decode v) :=
  ((.field fun _ _ => rfl) : Sim (LeaderAndIsrRequest.overAt v 0 · t0) (LeaderAndIsrRequest.overAt v 1 · t0) _)
    |>.andThen ((.field fun _ _ => rfl) : Sim (LeaderAndIsrRequest.overAt v 1 · t0) (LeaderAndIsrRequest.overAt v 2 · t0) _)
    |>.andThen ((.onlyIf (fun hc => .field fun _ _ => by simp only [LeaderAndIsrRequest.overAt, if_pos hc]; rfl) fun hc _ => by simp only [LeaderAndIsrRequest.overAt, if_neg hc]; rfl) : Sim (LeaderAndIsrRequest.overAt v 2 · t0) (LeaderAndIsrRequest.overAt v 3 · t0) _)
    |>.andThen ((.onlyIf (fun hc => .structs (fun _ _ => by simp only [LeaderAndIsrRequest.overAt, if_pos hc]; rfl) fun _ => by simp only [LeaderAndIsrRequest.overAt, if_pos hc]; rfl) fun hc _ => by simp only [LeaderAndIsrRequest.overAt, if_neg hc]; rfl) : Sim (LeaderAndIsrRequest.overAt v 3 · t0) (LeaderAndIsrRequest.overAt v 4 · t0) _)
    |>.andThen ((.onlyIf (fun hc => .structs (fun _ _ => by simp only [LeaderAndIsrRequest.overAt, if_pos hc]; rfl) fun _ => by simp only [LeaderAndIsrRequest.overAt, if_pos hc]; rfl) fun hc _ => by simp only [LeaderAndIsrRequest.overAt, if_neg hc]; rfl) : Sim (LeaderAndIsrRequest.overAt v 4 · t0) (LeaderAndIsrRequest.overAt v 5 · t0) _)
    |>.andThen ((.structs (fun _ _ => rfl) fun _ => rfl) : Sim (LeaderAndIsrRequest.overAt v 5 · t0) (LeaderAndIsrRequest.overAt v 6 · t0) _)
theorem LeaderAndIsrRequest.reusable : LeaderAndIsrRequest.reuse.Holds LeaderAndIsrRequest.layout where
  decode v t0 d := by
    have h := LeaderAndIsrRequest.sim v t0 {} d
    have e : LeaderAndIsrRequest.overAt v 0 {} t0 = t0 := by first | rfl | (simp only [LeaderAndIsrRequest.overAt, upto_zero, Option.none_or, ite_self] <;> rfl)
    simp only [e] at h
    exact h
  same v y t0 h := (app_congr (app_congr (app_congr (app_congr (app_congr rfl rfl) (again_opt Wire.int64 y.BrokerEpoch t0.BrokerEpoch)) (same_when fun hc hn => h (Or.inl ⟨hc, hn⟩))) (same_when fun hc hn => h (Or.inr (Or.inl ⟨hc, hn⟩)))) (same_or fun hn => h (Or.inr (Or.inr (hn)))))
  stale v y h := by
    obtain ⟨hc, h⟩ | ⟨hc, h⟩ | h := h
    · exact ⟨({ UngroupedPartitionStates := some [{}] } : LeaderAndIsrRequest), (app_ne_left (app_ne_left (app_ne_right (app_congr (app_congr rfl rfl) (again_opt Wire.int64 y.BrokerEpoch 0)) (stale_when hc h)) none_when) none_or)⟩
    · exact ⟨({ TopicStates := some [{}] } : LeaderAndIsrRequest), (app_ne_left (app_ne_right (app_congr (app_congr (app_congr rfl rfl) (again_opt Wire.int64 y.BrokerEpoch 0)) none_when) (stale_when hc h)) none_or)⟩
    · exact ⟨({ LiveLeaders := some [{}] } : LeaderAndIsrRequest), (app_ne_right (app_congr (app_congr (app_congr (app_congr rfl rfl) (again_opt Wire.int64 y.BrokerEpoch 0)) none_when) none_when) (stale_or h))⟩

/-- What `t0` becomes where a new `LeaderAndIsrPartitionError4` becomes `y`. -/
def LeaderAndIsrPartitionError4.over (_version : Int16) (y _t0 : LeaderAndIsrPartitionError4) : LeaderAndIsrPartitionError4 :=
  { TopicName := y.TopicName,
    PartitionIndex := y.PartitionIndex,
    ErrorCode := y.ErrorCode }

/-- An array of structures is nil. -/
def LeaderAndIsrPartitionError4.Nulls (_version : Int16) (_y : LeaderAndIsrPartitionError4) : Prop :=
  False

/-- `LeaderAndIsrPartitionError4` in use again. -/
def LeaderAndIsrPartitionError4.reuse : Reuse LeaderAndIsrPartitionError4.type := { over := LeaderAndIsrPartitionError4.over, Nulls := LeaderAndIsrPartitionError4.Nulls }

/-- The same after the first `k` statements of `Decode`. -/
def LeaderAndIsrPartitionError4.overAt (_version : Int16) (k : Nat) (y t0 : LeaderAndIsrPartitionError4) : LeaderAndIsrPartitionError4 :=
  { TopicName := upto k 0 (y.TopicName) t0.TopicName,
    PartitionIndex := upto k 1 (y.PartitionIndex) t0.PartitionIndex,
    ErrorCode := upto k 2 (y.ErrorCode) t0.ErrorCode }

theorem LeaderAndIsrPartitionError4.sim (v : Int16) (t0 : LeaderAndIsrPartitionError4) : Sim (LeaderAndIsrPartitionError4.overAt v 0 · t0) (LeaderAndIsrPartitionError4.overAt v 3 · t0) (LeaderAndIsrPartitionError4.decode v) :=
  ((.field fun _ _ => rfl) : Sim (LeaderAndIsrPartitionError4.overAt v 0 · t0) (LeaderAndIsrPartitionError4.overAt v 1 · t0) _)
    |>.andThen ((.field fun _ _ => rfl) : Sim (LeaderAndIsrPartitionError4.overAt v 1 · t0) (LeaderAndIsrPartitionError4.overAt v 2 · t0) _)
    |>.andThen ((.field fun _ _ => rfl) : Sim (LeaderAndIsrPartitionError4.overAt v 2 · t0) (LeaderAndIsrPartitionError4.overAt v 3 · t0) _)
theorem LeaderAndIsrPartitionError4.reusable : LeaderAndIsrPartitionError4.reuse.Holds LeaderAndIsrPartitionError4.layout where
  decode v t0 d := by
    have h := LeaderAndIsrPartitionError4.sim v t0 {} d
    have e : LeaderAndIsrPartitionError4.overAt v 0 {} t0 = t0 := by first | rfl | (simp only [LeaderAndIsrPartitionError4.overAt, upto_zero, Option.none_or, ite_self] <;> rfl)
    simp only [e] at h
    exact h
  same v y t0 _h := (app_congr (app_congr rfl rfl) rfl)
  stale _ _ h := h.elim

/-- What `t0` becomes where a new `LeaderAndIsrResponse` becomes `y`. -/
def LeaderAndIsrResponse.over (_version : Int16) (y t0 : LeaderAndIsrResponse) : LeaderAndIsrResponse :=
  { ErrorCode := y.ErrorCode,
    PartitionErrors := y.PartitionErrors.or t0.PartitionErrors }

/-- An array of structures is nil. -/
def LeaderAndIsrResponse.Nulls (_version : Int16) (y : LeaderAndIsrResponse) : Prop :=
  y.PartitionErrors = none

/-- `LeaderAndIsrResponse` in use again. -/
def LeaderAndIsrResponse.reuse : Reuse LeaderAndIsrResponse.type := { over := LeaderAndIsrResponse.over, Nulls := LeaderAndIsrResponse.Nulls }

/-- The same after the first `k` statements of `Decode`. -/
def LeaderAndIsrResponse.overAt (_version : Int16) (k : Nat) (y t0 : LeaderAndIsrResponse) : LeaderAndIsrResponse :=
  { ErrorCode := upto k 0 (y.ErrorCode) t0.ErrorCode,
    PartitionErrors := y.PartitionErrors.or t0.PartitionErrors }

theorem LeaderAndIsrResponse.sim (v : Int16) (t0 : LeaderAndIsrResponse) : Sim (LeaderAndIsrResponse.overAt v 0 · t0) (LeaderAndIsrResponse.overAt v 2 · t0) (LeaderAndIsrResponse.decode v) :=
  ((.field fun _ _ => rfl) : Sim (LeaderAndIsrResponse.overAt v 0 · t0) (LeaderAndIsrResponse.overAt v 1 · t0) _)
    |>.andThen ((.structs (fun _ _ => rfl) fun _ => rfl) : Sim (LeaderAndIsrResponse.overAt v 1 · t0) (LeaderAndIsrResponse.overAt v 2 · t0) _)
theorem LeaderAndIsrResponse.reusable : LeaderAndIsrResponse.reuse.Holds LeaderAndIsrResponse.layout where
  decode v t0 d := by
    have h := LeaderAndIsrResponse.sim v t0 {} d
    have e : LeaderAndIsrResponse.overAt v 0 {} t0 = t0 := by first | rfl | (simp only [LeaderAndIsrResponse.overAt, upto_zero, Option.none_or, ite_self] <;> rfl)
    simp only [e] at h
    exact h
  same v y t0 h := (app_congr rfl (same_or fun hn => h (hn)))
  stale v y h := by
    obtain h := h
    · exact ⟨({ PartitionErrors := some [{}] } : LeaderAndIsrResponse), (app_ne_right rfl (stale_or h))⟩

/-- The structures of the LeaderAndIsr messages. -/
def reuseLeaderAndIsr : List (Σ (M : MsgType) (_ : Layout M), Reuse M) :=
  [⟨LeaderAndIsrRequest.type, LeaderAndIsrRequest.layout, LeaderAndIsrRequest.reuse⟩,
   ⟨LeaderAndIsrTopicState4.type, LeaderAndIsrTopicState4.layout, LeaderAndIsrTopicState4.reuse⟩,
   ⟨LeaderAndIsrLiveLeader4.type, LeaderAndIsrLiveLeader4.layout, LeaderAndIsrLiveLeader4.reuse⟩,
   ⟨LeaderAndIsrPartitionState4.type, LeaderAndIsrPartitionState4.layout, LeaderAndIsrPartitionState4.reuse⟩,
   ⟨LeaderAndIsrResponse.type, LeaderAndIsrResponse.layout, LeaderAndIsrResponse.reuse⟩,
   ⟨LeaderAndIsrPartitionError4.type, LeaderAndIsrPartitionError4.layout, LeaderAndIsrPartitionError4.reuse⟩]
theorem reuseLeaderAndIsr_holds : ∀ p ∈ reuseLeaderAndIsr, p.2.2.Holds p.2.1 := by
  unfold reuseLeaderAndIsr
  simp only [List.forall_mem_cons]
  exact ⟨LeaderAndIsrRequest.reusable, LeaderAndIsrTopicState4.reusable, LeaderAndIsrLiveLeader4.reusable, LeaderAndIsrPartitionState4.reusable, LeaderAndIsrResponse.reusable, LeaderAndIsrPartitionError4.reusable, fun _ h => absurd h (by simp)⟩

end Kafka.Msg
