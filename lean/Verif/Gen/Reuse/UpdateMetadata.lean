import Verif.Message.Reuse
import Verif.Gen.Spec.UpdateMetadata
/-!
Generated by tools/gen_messages.py: decoding into UpdateMetadata messages used before.
-/
set_option linter.unusedSimpArgs false
set_option linter.unusedVariables false
namespace Kafka.Msg

/-- What `t0` becomes where a new `UpdateMetadataPartitionState6` becomes `y`. -/
def UpdateMetadataPartitionState6.over (version : Int16) (y t0 : UpdateMetadataPartitionState6) : UpdateMetadataPartitionState6 :=
  { TopicName := if version ≥ 0 ∧ version ≤ 4 then y.TopicName else t0.TopicName,
    PartitionIndex := y.PartitionIndex,
    ControllerEpoch := y.ControllerEpoch,
    Leader := y.Leader,
    LeaderEpoch := y.LeaderEpoch,
    Isr := y.Isr,
    ZkVersion := y.ZkVersion,
    Replicas := y.Replicas,
    OfflineReplicas := if version ≥ 4 then y.OfflineReplicas else t0.OfflineReplicas }

/-- An array of structures is nil. -/
def UpdateMetadataPartitionState6.Nulls (_version : Int16) (_y : UpdateMetadataPartitionState6) : Prop :=
  False

/-- `UpdateMetadataPartitionState6` in use again. -/
def UpdateMetadataPartitionState6.reuse : Reuse UpdateMetadataPartitionState6.type := { over := UpdateMetadataPartitionState6.over, Nulls := UpdateMetadataPartitionState6.Nulls }

/-- The same after the first `k` statements of `Decode`. -/
def UpdateMetadataPartitionState6.overAt (version : Int16) (k : Nat) (y t0 : UpdateMetadataPartitionState6) : UpdateMetadataPartitionState6 :=
  { TopicName := upto k 0 (if version ≥ 0 ∧ version ≤ 4 then y.TopicName else t0.TopicName) t0.TopicName,
    PartitionIndex := upto k 1 (y.PartitionIndex) t0.PartitionIndex,
    ControllerEpoch := upto k 2 (y.ControllerEpoch) t0.ControllerEpoch,
    Leader := upto k 3 (y.Leader) t0.Leader,
    LeaderEpoch := upto k 4 (y.LeaderEpoch) t0.LeaderEpoch,
    Isr := upto k 5 (y.Isr) t0.Isr,
    ZkVersion := upto k 6 (y.ZkVersion) t0.ZkVersion,
    Replicas := upto k 7 (y.Replicas) t0.Replicas,
    OfflineReplicas := upto k 8 (if version ≥ 4 then y.OfflineReplicas else t0.OfflineReplicas) t0.OfflineReplicas }

theorem UpdateMetadataPartitionState6.sim (v : Int16) (t0 : UpdateMetadataPartitionState6) : Sim (UpdateMetadataPartitionState6.overAt v 0 · t0) (UpdateMetadataPartitionState6.overAt v 9 · t0) (UpdateMetadataPartitionState6.decode v) :=
  ((.onlyIf (fun hc => .field fun _ _ => by simp only [UpdateMetadataPartitionState6.overAt, if_pos hc]; rfl) fun hc _ => by simp only [UpdateMetadataPartitionState6.overAt, if_neg hc]; rfl) : Sim (UpdateMetadataPartitionState6.overAt v 0 · t0) (UpdateMetadataPartitionState6.overAt v 1 · t0) _)
    |>.andThen ((.field fun _ _ => rfl) : Sim (UpdateMetadataPartitionState6.overAt v 1 · t0) (UpdateMetadataPartitionState6.overAt v 2 · t0) _)
    |>.andThen ((.field fun _ _ => rfl) : Sim (UpdateMetadataPartitionState6.overAt v 2 · t0) (UpdateMetadataPartitionState6.overAt v 3 · t0) _)
    |>.andThen ((.field fun _ _ => rfl) : Sim (UpdateMetadataPartitionState6.overAt v 3 · t0) (UpdateMetadataPartitionState6.overAt v 4 · t0) _)
    |>.andThen ((.field fun _ _ => rfl) : Sim (UpdateMetadataPartitionState6.overAt v 4 · t0) (UpdateMetadataPartitionState6.overAt v 5 · t0) _)
    |>.andThen ((.field fun _ _ => rfl) : Sim (UpdateMetadataPartitionState6.overAt v 5 · t0) (UpdateMetadataPartitionState6.overAt v 6 · t0) _)
    |>.andThen ((.field fun _ _ => rfl) : Sim (UpdateMetadataPartitionState6.overAt v 6 · t0) (UpdateMetadataPartitionState6.overAt v 7 · t0) _)
    |>.andThen ((.field fun _ _ => rfl) : Sim (UpdateMetadataPartitionState6.overAt v 7 · t0) (UpdateMetadataPartitionState6.overAt v 8 · t0) _)
    |>.andThen ((.onlyIf (fun hc => .field fun _ _ => by simp only [UpdateMetadataPartitionState6.overAt, if_pos hc]; rfl) fun hc _ => by simp only [UpdateMetadataPartitionState6.overAt, if_neg hc]; rfl) : Sim (UpdateMetadataPartitionState6.overAt v 8 · t0) (UpdateMetadataPartitionState6.overAt v 9 · t0) _)
theorem UpdateMetadataPartitionState6.reusable : UpdateMetadataPartitionState6.reuse.Holds UpdateMetadataPartitionState6.layout where
  decode v t0 d := by
    have h := UpdateMetadataPartitionState6.sim v t0 {} d
    have e : UpdateMetadataPartitionState6.overAt v 0 {} t0 = t0 := by first | rfl | (simp only [UpdateMetadataPartitionState6.overAt, upto_zero, Option.none_or, ite_self] <;> rfl)
    simp only [e] at h
    exact h
  same v y t0 _h := (app_congr (app_congr (app_congr (app_congr (app_congr (app_congr (app_congr (app_congr (again_opt Wire.string y.TopicName t0.TopicName) rfl) rfl) rfl) rfl) rfl) rfl) rfl) (again_opt Wire.int32Array y.OfflineReplicas t0.OfflineReplicas))
  stale _ _ h := h.elim

/-- What `t0` becomes where a new `UpdateMetadataTopicState6` becomes `y`. -/
def UpdateMetadataTopicState6.over (version : Int16) (y t0 : UpdateMetadataTopicState6) : UpdateMetadataTopicState6 :=
  { TopicName := if version ≥ 5 then y.TopicName else t0.TopicName,
    PartitionStates := if version ≥ 5 then y.PartitionStates.or t0.PartitionStates else t0.PartitionStates }

/-- An array of structures is nil. -/
def UpdateMetadataTopicState6.Nulls (version : Int16) (y : UpdateMetadataTopicState6) : Prop :=
  (version ≥ 5) ∧ y.PartitionStates = none

/-- `UpdateMetadataTopicState6` in use again. -/
def UpdateMetadataTopicState6.reuse : Reuse UpdateMetadataTopicState6.type := { over := UpdateMetadataTopicState6.over, Nulls := UpdateMetadataTopicState6.Nulls }

/-- The same after the first `k` statements of `Decode`. -/
def UpdateMetadataTopicState6.overAt (version : Int16) (k : Nat) (y t0 : UpdateMetadataTopicState6) : UpdateMetadataTopicState6 :=
  { TopicName := upto k 0 (if version ≥ 5 then y.TopicName else t0.TopicName) t0.TopicName,
    PartitionStates := if version ≥ 5 then y.PartitionStates.or t0.PartitionStates else t0.PartitionStates }

theorem UpdateMetadataTopicState6.sim (v : Int16) (t0 : UpdateMetadataTopicState6) : Sim (UpdateMetadataTopicState6.overAt v 0 · t0) (UpdateMetadataTopicState6.overAt v 2 · t0) (UpdateMetadataTopicState6.decode v) :=
  ((.onlyIf (fun hc => .field fun _ _ => by simp only [UpdateMetadataTopicState6.overAt, if_pos hc]; rfl) fun hc _ => by simp only [UpdateMetadataTopicState6.overAt, if_neg hc]; rfl) : Sim (UpdateMetadataTopicState6.overAt v 0 · t0) (UpdateMetadataTopicState6.overAt v 1 · t0) _)
    |>.andThen ((.onlyIf (fun hc => .structs (fun _ _ => by simp only [UpdateMetadataTopicState6.overAt, if_pos hc]; rfl) fun _ => by simp only [UpdateMetadataTopicState6.overAt, if_pos hc]; rfl) fun hc _ => by simp only [UpdateMetadataTopicState6.overAt, if_neg hc]; rfl) : Sim (UpdateMetadataTopicState6.overAt v 1 · t0) (UpdateMetadataTopicState6.overAt v 2 · t0) _)
theorem UpdateMetadataTopicState6.reusable : UpdateMetadataTopicState6.reuse.Holds UpdateMetadataTopicState6.layout where
  decode v t0 d := by
    have h := UpdateMetadataTopicState6.sim v t0 {} d
    have e : UpdateMetadataTopicState6.overAt v 0 {} t0 = t0 := by first | rfl | (simp only [UpdateMetadataTopicState6.overAt, upto_zero, Option.none_or, ite_self] <;> rfl)
    simp only [e] at h
    exact h
  same v y t0 h := (app_congr (again_opt Wire.string y.TopicName t0.TopicName) (same_when fun hc hn => h (⟨hc, hn⟩)))
  stale v y h := by
    obtain ⟨hc, h⟩ := h
    · exact ⟨({ PartitionStates := some [{}] } : UpdateMetadataTopicState6), (app_ne_right (again_opt Wire.string y.TopicName []) (stale_when hc h))⟩

/-- What `t0` becomes where a new `UpdateMetadataEndpoint6` becomes `y`. -/
def UpdateMetadataEndpoint6.over (version : Int16) (y t0 : UpdateMetadataEndpoint6) : UpdateMetadataEndpoint6 :=
  { Port := if version ≥ 1 then y.Port else t0.Port,
    Host := if version ≥ 1 then y.Host else t0.Host,
    Listener := if version ≥ 3 then y.Listener else t0.Listener,
    SecurityProtocol := if version ≥ 1 then y.SecurityProtocol else t0.SecurityProtocol }

/-- An array of structures is nil. -/
def UpdateMetadataEndpoint6.Nulls (_version : Int16) (_y : UpdateMetadataEndpoint6) : Prop :=
  False

/-- `UpdateMetadataEndpoint6` in use again. -/
def UpdateMetadataEndpoint6.reuse : Reuse UpdateMetadataEndpoint6.type := { over := UpdateMetadataEndpoint6.over, Nulls := UpdateMetadataEndpoint6.Nulls }

/-- The same after the first `k` statements of `Decode`. -/
def UpdateMetadataEndpoint6.overAt (version : Int16) (k : Nat) (y t0 : UpdateMetadataEndpoint6) : UpdateMetadataEndpoint6 :=
  { Port := upto k 0 (if version ≥ 1 then y.Port else t0.Port) t0.Port,
    Host := upto k 1 (if version ≥ 1 then y.Host else t0.Host) t0.Host,
    Listener := upto k 2 (if version ≥ 3 then y.Listener else t0.Listener) t0.Listener,
    SecurityProtocol := upto k 3 (if version ≥ 1 then y.SecurityProtocol else t0.SecurityProtocol) t0.SecurityProtocol }

theorem UpdateMetadataEndpoint6.sim (v : Int16) (t0 : UpdateMetadataEndpoint6) : Sim (UpdateMetadataEndpoint6.overAt v 0 · t0) (UpdateMetadataEndpoint6.overAt v 4 · t0) (UpdateMetadataEndpoint6.decode v) :=
  ((.onlyIf (fun hc => .field fun _ _ => by simp only [UpdateMetadataEndpoint6.overAt, if_pos hc]; rfl) fun hc _ => by simp only [UpdateMetadataEndpoint6.overAt, if_neg hc]; rfl) : Sim (UpdateMetadataEndpoint6.overAt v 0 · t0) (UpdateMetadataEndpoint6.overAt v 1 · t0) _)
    |>.andThen ((.onlyIf (fun hc => .field fun _ _ => by simp only [UpdateMetadataEndpoint6.overAt, if_pos hc]; rfl) fun hc _ => by simp only [UpdateMetadataEndpoint6.overAt, if_neg hc]; rfl) : Sim (UpdateMetadataEndpoint6.overAt v 1 · t0) (UpdateMetadataEndpoint6.overAt v 2 · t0) _)
    |>.andThen ((.onlyIf (fun hc => .field fun _ _ => by simp only [UpdateMetadataEndpoint6.overAt, if_pos hc]; rfl) fun hc _ => by simp only [UpdateMetadataEndpoint6.overAt, if_neg hc]; rfl) : Sim (UpdateMetadataEndpoint6.overAt v 2 · t0) (UpdateMetadataEndpoint6.overAt v 3 · t0) _)
    |>.andThen ((.onlyIf (fun hc => .field fun _ _ => by simp only [UpdateMetadataEndpoint6.overAt, if_pos hc]; rfl) fun hc _ => by simp only [UpdateMetadataEndpoint6.overAt, if_neg hc]; rfl) : Sim (UpdateMetadataEndpoint6.overAt v 3 · t0) (UpdateMetadataEndpoint6.overAt v 4 · t0) _)
theorem UpdateMetadataEndpoint6.reusable : UpdateMetadataEndpoint6.reuse.Holds UpdateMetadataEndpoint6.layout where
  decode v t0 d := by
    have h := UpdateMetadataEndpoint6.sim v t0 {} d
    have e : UpdateMetadataEndpoint6.overAt v 0 {} t0 = t0 := by first | rfl | (simp only [UpdateMetadataEndpoint6.overAt, upto_zero, Option.none_or, ite_self] <;> rfl)
    simp only [e] at h
    exact h
  same v y t0 _h := (app_congr (app_congr (app_congr (again_opt Wire.int32 y.Port t0.Port) (again_opt Wire.string y.Host t0.Host)) (again_opt Wire.string y.Listener t0.Listener)) (again_opt Wire.int16 y.SecurityProtocol t0.SecurityProtocol))
  stale _ _ h := h.elim

/-- What `t0` becomes where a new `UpdateMetadataBroker6` becomes `y`. -/
def UpdateMetadataBroker6.over (version : Int16) (y t0 : UpdateMetadataBroker6) : UpdateMetadataBroker6 :=
  { Id := y.Id,
    V0Host := if version ≥ 0 ∧ version ≤ 0 then y.V0Host else t0.V0Host,
    V0Port := if version ≥ 0 ∧ version ≤ 0 then y.V0Port else t0.V0Port,
    Endpoints := if version ≥ 1 then y.Endpoints.or t0.Endpoints else t0.Endpoints,
    Rack := if version ≥ 2 then y.Rack else t0.Rack }

/-- An array of structures is nil. -/
def UpdateMetadataBroker6.Nulls (version : Int16) (y : UpdateMetadataBroker6) : Prop :=
  (version ≥ 1) ∧ y.Endpoints = none

/-- `UpdateMetadataBroker6` in use again. -/
def UpdateMetadataBroker6.reuse : Reuse UpdateMetadataBroker6.type := { over := UpdateMetadataBroker6.over, Nulls := UpdateMetadataBroker6.Nulls }

/-- The same after the first `k` statements of `Decode`. -/
def UpdateMetadataBroker6.overAt (version : Int16) (k : Nat) (y t0 : UpdateMetadataBroker6) : UpdateMetadataBroker6 :=
  { Id := upto k 0 (y.Id) t0.Id,
    V0Host := upto k 1 (if version ≥ 0 ∧ version ≤ 0 then y.V0Host else t0.V0Host) t0.V0Host,
    V0Port := upto k 2 (if version ≥ 0 ∧ version ≤ 0 then y.V0Port else t0.V0Port) t0.V0Port,
    Endpoints := if version ≥ 1 then y.Endpoints.or t0.Endpoints else t0.Endpoints,
    Rack := upto k 4 (if version ≥ 2 then y.Rack else t0.Rack) t0.Rack }

theorem UpdateMetadataBroker6.sim (v : Int16) (t0 : UpdateMetadataBroker6) : Sim (UpdateMetadataBroker6.overAt v 0 · t0) (UpdateMetadataBroker6.overAt v 5 · t0) (UpdateMetadataBroker6.decode v) :=
  ((.field fun _ _ => rfl) : Sim (UpdateMetadataBroker6.overAt v 0 · t0) (UpdateMetadataBroker6.overAt v 1 · t0) _)
    |>.andThen ((.onlyIf (fun hc => .field fun _ _ => by simp only [UpdateMetadataBroker6.overAt, if_pos hc]; rfl) fun hc _ => by simp only [UpdateMetadataBroker6.overAt, if_neg hc]; rfl) : Sim (UpdateMetadataBroker6.overAt v 1 · t0) (UpdateMetadataBroker6.overAt v 2 · t0) _)
    |>.andThen ((.onlyIf (fun hc => .field fun _ _ => by simp only [UpdateMetadataBroker6.overAt, if_pos hc]; rfl) fun hc _ => by simp only [UpdateMetadataBroker6.overAt, if_neg hc]; rfl) : Sim (UpdateMetadataBroker6.overAt v 2 · t0) (UpdateMetadataBroker6.overAt v 3 · t0) _)
    |>.andThen ((.onlyIf (fun hc => .structs (fun _ _ => by simp only [UpdateMetadataBroker6.overAt, if_pos hc]; rfl) fun _ => by simp only [UpdateMetadataBroker6.overAt, if_pos hc]; rfl) fun hc _ => by simp only [UpdateMetadataBroker6.overAt, if_neg hc]; rfl) : Sim (UpdateMetadataBroker6.overAt v 3 · t0) (UpdateMetadataBroker6.overAt v 4 · t0) _)
    |>.andThen ((.onlyIf (fun hc => .field fun _ _ => by simp only [UpdateMetadataBroker6.overAt, if_pos hc]; rfl) fun hc _ => by simp only [UpdateMetadataBroker6.overAt, if_neg hc]; rfl) : Sim (UpdateMetadataBroker6.overAt v 4 · t0) (UpdateMetadataBroker6.overAt v 5 · t0) _)
theorem UpdateMetadataBroker6.reusable : UpdateMetadataBroker6.reuse.Holds UpdateMetadataBroker6.layout where
  decode v t0 d := by
    have h := UpdateMetadataBroker6.sim v t0 {} d
    have e : UpdateMetadataBroker6.overAt v 0 {} t0 = t0 := by first | rfl | (simp only [UpdateMetadataBroker6.overAt, upto_zero, Option.none_or, ite_self] <;> rfl)
    simp only [e] at h
    exact h
  same v y t0 h := (app_congr (app_congr (app_congr (app_congr rfl (again_opt Wire.string y.V0Host t0.V0Host)) (again_opt Wire.int32 y.V0Port t0.V0Port)) (same_when fun hc hn => h (⟨hc, hn⟩))) (again_opt Wire.string y.Rack t0.Rack))
  stale v y h := by
    obtain ⟨hc, h⟩ := h
    · exact ⟨({ Endpoints := some [{}] } : UpdateMetadataBroker6), (app_ne_left (app_ne_right (app_congr (app_congr rfl (again_opt Wire.string y.V0Host [])) (again_opt Wire.int32 y.V0Port 0)) (stale_when hc h)) (again_opt Wire.string y.Rack []))⟩

/-- What `t0` becomes where a new `UpdateMetadataRequest` becomes `y`. -/
def UpdateMetadataRequest.over (version : Int16) (y t0 : UpdateMetadataRequest) : UpdateMetadataRequest :=
  { ControllerId := y.ControllerId,
    ControllerEpoch := y.ControllerEpoch,
    BrokerEpoch := if version ≥ 5 then y.BrokerEpoch else t0.BrokerEpoch,
    UngroupedPartitionStates := if version ≥ 0 ∧ version ≤ 4 then y.UngroupedPartitionStates.or t0.UngroupedPartitionStates else t0.UngroupedPartitionStates,
    TopicStates := if version ≥ 5 then y.TopicStates.or t0.TopicStates else t0.TopicStates,
    LiveBrokers := y.LiveBrokers.or t0.LiveBrokers }

/-- An array of structures is nil. -/
def UpdateMetadataRequest.Nulls (version : Int16) (y : UpdateMetadataRequest) : Prop :=
  (version ≥ 0 ∧ version ≤ 4) ∧ y.UngroupedPartitionStates = none ∨ (version ≥ 5) ∧ y.TopicStates = none ∨ y.LiveBrokers = none

/-- `UpdateMetadataRequest` in use again. -/
def UpdateMetadataRequest.reuse : Reuse UpdateMetadataRequest.type := { over := UpdateMetadataRequest.over, Nulls := UpdateMetadataRequest.Nulls }

/-- The same after the first `k` statements of `Decode`. -/
def UpdateMetadataRequest.overAt (version : Int16) (k : Nat) (y t0 : UpdateMetadataRequest) : UpdateMetadataRequest :=
  { ControllerId := upto k 0 (y.ControllerId) t0.ControllerId,
    ControllerEpoch := upto k 1 (y.ControllerEpoch) t0.ControllerEpoch,
    BrokerEpoch := upto k 2 (if version ≥ 5 then y.BrokerEpoch else t0.BrokerEpoch) t0.BrokerEpoch,
    UngroupedPartitionStates := if version ≥ 0 ∧ version ≤ 4 then y.UngroupedPartitionStates.or t0.UngroupedPartitionStates else t0.UngroupedPartitionStates,
    TopicStates := if version ≥ 5 then y.TopicStates.or t0.TopicStates else t0.TopicStates,
    LiveBrokers := y.LiveBrokers.or t0.LiveBrokers }

theorem UpdateMetadataRequest.sim (v : Int16) (t0 : UpdateMetadataRequest) : Sim (UpdateMetadataRequest.overAt v 0 · t0) (UpdateMetadataRequest.overAt v 6 · t0) (UpdateMetadataRequest.decode v) :=
  ((.field fun _ _ => rfl) : Sim (UpdateMetadataRequest.overAt v 0 · t0) (UpdateMetadataRequest.overAt v 1 · t0) _)
    |>.andThen ((.field fun _ _ => rfl) : Sim (UpdateMetadataRequest.overAt v 1 · t0) (UpdateMetadataRequest.overAt v 2 · t0) _)
    |>.andThen ((.onlyIf (fun hc => .field fun _ _ => by simp only [UpdateMetadataRequest.overAt, if_pos hc]; rfl) fun hc _ => by simp only [UpdateMetadataRequest.overAt, if_neg hc]; rfl) : Sim (UpdateMetadataRequest.overAt v 2 · t0) (UpdateMetadataRequest.overAt v 3 · t0) _)
    |>.andThen ((.onlyIf (fun hc => .structs (fun _ _ => by simp only [UpdateMetadataRequest.overAt, if_pos hc]; rfl) fun _ => by simp only [UpdateMetadataRequest.overAt, if_pos hc]; rfl) fun hc _ => by simp only [UpdateMetadataRequest.overAt, if_neg hc]; rfl) : Sim (UpdateMetadataRequest.overAt v 3 · t0) (UpdateMetadataRequest.overAt v 4 · t0) _)
    |>.andThen ((.onlyIf (fun hc => .structs (fun _ _ => by simp only [UpdateMetadataRequest.overAt, if_pos hc]; rfl) fun _ => by simp only [UpdateMetadataRequest.overAt, if_pos hc]; rfl) fun hc _ => by simp only [UpdateMetadataRequest.overAt, if_neg hc]; rfl) : Sim (UpdateMetadataRequest.overAt v 4 · t0) (UpdateMetadataRequest.overAt v 5 · t0) _)
    |>.andThen ((.structs (fun _ _ => rfl) fun _ => rfl) : Sim (UpdateMetadataRequest.overAt v 5 · t0) (UpdateMetadataRequest.overAt v 6 · t0) _)
theorem UpdateMetadataRequest.reusable : UpdateMetadataRequest.reuse.Holds UpdateMetadataRequest.layout where
  decode v t0 d := by
    have h := UpdateMetadataRequest.sim v t0 {} d
    have e : UpdateMetadataRequest.overAt v 0 {} t0 = t0 := by first | rfl | (simp only [UpdateMetadataRequest.overAt, upto_zero, Option.none_or, ite_self] <;> rfl)
    simp only [e] at h
    exact h
  same v y t0 h := (app_congr (app_congr (app_congr (app_congr (app_congr rfl rfl) (again_opt Wire.int64 y.BrokerEpoch t0.BrokerEpoch)) (same_when fun hc hn => h (Or.inl ⟨hc, hn⟩))) (same_when fun hc hn => h (Or.inr (Or.inl ⟨hc, hn⟩)))) (same_or fun hn => h (Or.inr (Or.inr (hn)))))
  stale v y h := by
    obtain ⟨hc, h⟩ | ⟨hc, h⟩ | h := h
    · exact ⟨({ UngroupedPartitionStates := some [{}] } : UpdateMetadataRequest), (app_ne_left (app_ne_left (app_ne_right (app_congr (app_congr rfl rfl) (again_opt Wire.int64 y.BrokerEpoch 0)) (stale_when hc h)) none_when) none_or)⟩
    · exact ⟨({ TopicStates := some [{}] } : UpdateMetadataRequest), (app_ne_left (app_ne_right (app_congr (app_congr (app_congr rfl rfl) (again_opt Wire.int64 y.BrokerEpoch 0)) none_when) (stale_when hc h)) none_or)⟩
    · exact ⟨({ LiveBrokers := some [{}] } : UpdateMetadataRequest), (app_ne_right (app_congr (app_congr (app_congr (app_congr rfl rfl) (again_opt Wire.int64 y.BrokerEpoch 0)) none_when) none_when) (stale_or h))⟩

/-- What `t0` becomes where a new `UpdateMetadataResponse` becomes `y`. -/
def UpdateMetadataResponse.over (_version : Int16) (y _t0 : UpdateMetadataResponse) : UpdateMetadataResponse :=
  { ErrorCode := y.ErrorCode }

/-- An array of structures is nil. -/
def UpdateMetadataResponse.Nulls (_version : Int16) (_y : UpdateMetadataResponse) : Prop :=
  False

/-- `UpdateMetadataResponse` in use again. -/
def UpdateMetadataResponse.reuse : Reuse UpdateMetadataResponse.type := { over := UpdateMetadataResponse.over, Nulls := UpdateMetadataResponse.Nulls }

/-- The same after the first `k` statements of `Decode`. -/
def UpdateMetadataResponse.overAt (_version : Int16) (k : Nat) (y t0 : UpdateMetadataResponse) : UpdateMetadataResponse :=
  { ErrorCode := upto k 0 (y.ErrorCode) t0.ErrorCode }

theorem UpdateMetadataResponse.sim (v : Int16) (t0 : UpdateMetadataResponse) : Sim (UpdateMetadataResponse.overAt v 0 · t0) (UpdateMetadataResponse.overAt v 1 · t0) (UpdateMetadataResponse.decode v) :=
  ((.field fun _ _ => rfl) : Sim (UpdateMetadataResponse.overAt v 0 · t0) (UpdateMetadataResponse.overAt v 1 · t0) _)
theorem UpdateMetadataResponse.reusable : UpdateMetadataResponse.reuse.Holds UpdateMetadataResponse.layout where
  decode v t0 d := by
    have h := UpdateMetadataResponse.sim v t0 {} d
    have e : UpdateMetadataResponse.overAt v 0 {} t0 = t0 := by first | rfl | (simp only [UpdateMetadataResponse.overAt, upto_zero, Option.none_or, ite_self] <;> rfl)
    simp only [e] at h
    exact h
  same v y t0 _h := rfl
  stale _ _ h := h.elim

/-- The structures of the UpdateMetadata messages. -/
def reuseUpdateMetadata : List (Σ (M : MsgType) (_ : Layout M), Reuse M) :=
  [⟨UpdateMetadataRequest.type, UpdateMetadataRequest.layout, UpdateMetadataRequest.reuse⟩,
   ⟨UpdateMetadataTopicState6.type, UpdateMetadataTopicState6.layout, UpdateMetadataTopicState6.reuse⟩,
   ⟨UpdateMetadataBroker6.type, UpdateMetadataBroker6.layout, UpdateMetadataBroker6.reuse⟩,
   ⟨UpdateMetadataEndpoint6.type, UpdateMetadataEndpoint6.layout, UpdateMetadataEndpoint6.reuse⟩,
   ⟨UpdateMetadataPartitionState6.type, UpdateMetadataPartitionState6.layout, UpdateMetadataPartitionState6.reuse⟩,
   ⟨UpdateMetadataResponse.type, UpdateMetadataResponse.layout, UpdateMetadataResponse.reuse⟩]
theorem reuseUpdateMetadata_holds : ∀ p ∈ reuseUpdateMetadata, p.2.2.Holds p.2.1 := by
  unfold reuseUpdateMetadata
  simp only [List.forall_mem_cons]
  exact ⟨UpdateMetadataRequest.reusable, UpdateMetadataTopicState6.reusable, UpdateMetadataBroker6.reusable, UpdateMetadataEndpoint6.reusable, UpdateMetadataPartitionState6.reusable, UpdateMetadataResponse.reusable, fun _ h => absurd h (by simp)⟩

end Kafka.Msg
