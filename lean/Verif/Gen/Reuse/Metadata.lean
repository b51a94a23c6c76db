import Verif.Message.Reuse
import Verif.Gen.Spec.Metadata
/-!
Generated by tools/gen_messages.py: decoding into Metadata messages used before.
-/
set_option linter.unusedSimpArgs false
set_option linter.unusedVariables false
namespace Kafka.Msg

/-- What `t0` becomes where a new `MetadataRequestTopic3` becomes `y`. -/
def MetadataRequestTopic3.over (_version : Int16) (y _t0 : MetadataRequestTopic3) : MetadataRequestTopic3 :=
  { Name := y.Name }

/-- An array of structures is nil. -/
def MetadataRequestTopic3.Nulls (_version : Int16) (_y : MetadataRequestTopic3) : Prop :=
  False

/-- `MetadataRequestTopic3` in use again. -/
def MetadataRequestTopic3.reuse : Reuse MetadataRequestTopic3.type := { over := MetadataRequestTopic3.over, Nulls := MetadataRequestTopic3.Nulls }

/-- The same after the first `k` statements of `Decode`. -/
def MetadataRequestTopic3.overAt (_version : Int16) (k : Nat) (y t0 : MetadataRequestTopic3) : MetadataRequestTopic3 :=
  { Name := upto k 0 (y.Name) t0.Name }

theorem MetadataRequestTopic3.sim (v : Int16) (t0 : MetadataRequestTopic3) : Sim (MetadataRequestTopic3.overAt v 0 · t0) (MetadataRequestTopic3.overAt v 1 · t0) (MetadataRequestTopic3.decode v) :=
  ((.field fun _ _ => rfl) : Sim (MetadataRequestTopic3.overAt v 0 · t0) (MetadataRequestTopic3.overAt v 1 · t0) _)
theorem MetadataRequestTopic3.reusable : MetadataRequestTopic3.reuse.Holds MetadataRequestTopic3.layout where
  decode v t0 d := by
    have h := MetadataRequestTopic3.sim v t0 {} d
    have e : MetadataRequestTopic3.overAt v 0 {} t0 = t0 := by first | rfl | (simp only [MetadataRequestTopic3.overAt, upto_zero, Option.none_or, ite_self] <;> rfl)
    simp only [e] at h
    exact h
  same v y t0 _h := rfl
  stale _ _ h := h.elim

/-- What `t0` becomes where a new `MetadataRequest` becomes `y`. -/
def MetadataRequest.over (version : Int16) (y t0 : MetadataRequest) : MetadataRequest :=
  { Topics := y.Topics.or t0.Topics,
    AllowAutoTopicCreation := if version ≥ 4 then y.AllowAutoTopicCreation else t0.AllowAutoTopicCreation,
    IncludeClusterAuthorizedOperations := if version ≥ 8 then y.IncludeClusterAuthorizedOperations else t0.IncludeClusterAuthorizedOperations,
    IncludeTopicAuthorizedOperations := if version ≥ 8 then y.IncludeTopicAuthorizedOperations else t0.IncludeTopicAuthorizedOperations }

/-- An array of structures is nil. -/
def MetadataRequest.Nulls (_version : Int16) (y : MetadataRequest) : Prop :=
  y.Topics = none

/-- `MetadataRequest` in use again. -/
def MetadataRequest.reuse : Reuse MetadataRequest.type := { over := MetadataRequest.over, Nulls := MetadataRequest.Nulls }

/-- The same after the first `k` statements of `Decode`. -/
def MetadataRequest.overAt (version : Int16) (k : Nat) (y t0 : MetadataRequest) : MetadataRequest :=
  { Topics := y.Topics.or t0.Topics,
    AllowAutoTopicCreation := upto k 1 (if version ≥ 4 then y.AllowAutoTopicCreation else t0.AllowAutoTopicCreation) t0.AllowAutoTopicCreation,
    IncludeClusterAuthorizedOperations := upto k 2 (if version ≥ 8 then y.IncludeClusterAuthorizedOperations else t0.IncludeClusterAuthorizedOperations) t0.IncludeClusterAuthorizedOperations,
    IncludeTopicAuthorizedOperations := upto k 3 (if version ≥ 8 then y.IncludeTopicAuthorizedOperations else t0.IncludeTopicAuthorizedOperations) t0.IncludeTopicAuthorizedOperations }

theorem MetadataRequest.sim (v : Int16) (t0 : MetadataRequest) : Sim (MetadataRequest.overAt v 0 · t0) (MetadataRequest.overAt v 4 · t0) (MetadataRequest.decode v) :=
  ((.structs (fun _ _ => rfl) fun _ => rfl) : Sim (MetadataRequest.overAt v 0 · t0) (MetadataRequest.overAt v 1 · t0) _)
    |>.andThen ((.onlyIf (fun hc => .field fun _ _ => by simp only [MetadataRequest.overAt, if_pos hc]; rfl) fun hc _ => by simp only [MetadataRequest.overAt, if_neg hc]; rfl) : Sim (MetadataRequest.overAt v 1 · t0) (MetadataRequest.overAt v 2 · t0) _)
    |>.andThen ((.onlyIf (fun hc => .field fun _ _ => by simp only [MetadataRequest.overAt, if_pos hc]; rfl) fun hc _ => by simp only [MetadataRequest.overAt, if_neg hc]; rfl) : Sim (MetadataRequest.overAt v 2 · t0) (MetadataRequest.overAt v 3 · t0) _)
    |>.andThen ((.onlyIf (fun hc => .field fun _ _ => by simp only [MetadataRequest.overAt, if_pos hc]; rfl) fun hc _ => by simp only [MetadataRequest.overAt, if_neg hc]; rfl) : Sim (MetadataRequest.overAt v 3 · t0) (MetadataRequest.overAt v 4 · t0) _)
theorem MetadataRequest.reusable : MetadataRequest.reuse.Holds MetadataRequest.layout where
  decode v t0 d := by
    have h := MetadataRequest.sim v t0 {} d
    have e : MetadataRequest.overAt v 0 {} t0 = t0 := by first | rfl | (simp only [MetadataRequest.overAt, upto_zero, Option.none_or, ite_self] <;> rfl)
    simp only [e] at h
    exact h
  same v y t0 h := (app_congr (app_congr (app_congr (same_or fun hn => h (hn)) (again_opt Wire.bool y.AllowAutoTopicCreation t0.AllowAutoTopicCreation)) (again_opt Wire.bool y.IncludeClusterAuthorizedOperations t0.IncludeClusterAuthorizedOperations)) (again_opt Wire.bool y.IncludeTopicAuthorizedOperations t0.IncludeTopicAuthorizedOperations))
  stale v y h := by
    obtain h := h
    · exact ⟨({ Topics := some [{}] } : MetadataRequest), (app_ne_left (app_ne_left (app_ne_left (stale_or h) (again_opt Wire.bool y.AllowAutoTopicCreation false)) (again_opt Wire.bool y.IncludeClusterAuthorizedOperations false)) (again_opt Wire.bool y.IncludeTopicAuthorizedOperations false))⟩

/-- What `t0` becomes where a new `MetadataResponseBroker3` becomes `y`. -/
def MetadataResponseBroker3.over (version : Int16) (y t0 : MetadataResponseBroker3) : MetadataResponseBroker3 :=
  { NodeId := y.NodeId,
    Host := y.Host,
    Port := y.Port,
    Rack := if version ≥ 1 then y.Rack else t0.Rack }

/-- An array of structures is nil. -/
def MetadataResponseBroker3.Nulls (_version : Int16) (_y : MetadataResponseBroker3) : Prop :=
  False

/-- `MetadataResponseBroker3` in use again. -/
def MetadataResponseBroker3.reuse : Reuse MetadataResponseBroker3.type := { over := MetadataResponseBroker3.over, Nulls := MetadataResponseBroker3.Nulls }

/-- The same after the first `k` statements of `Decode`. -/
def MetadataResponseBroker3.overAt (version : Int16) (k : Nat) (y t0 : MetadataResponseBroker3) : MetadataResponseBroker3 :=
  { NodeId := upto k 0 (y.NodeId) t0.NodeId,
    Host := upto k 1 (y.Host) t0.Host,
    Port := upto k 2 (y.Port) t0.Port,
    Rack := upto k 3 (if version ≥ 1 then y.Rack else t0.Rack) t0.Rack }

theorem MetadataResponseBroker3.sim (v : Int16) (t0 : MetadataResponseBroker3) : Sim (MetadataResponseBroker3.overAt v 0 · t0) (MetadataResponseBroker3.overAt v 4 · t0) (MetadataResponseBroker3.decode v) :=
  ((.field fun _ _ => rfl) : Sim (MetadataResponseBroker3.overAt v 0 · t0) (MetadataResponseBroker3.overAt v 1 · t0) _)
    |>.andThen ((.field fun _ _ => rfl) : Sim (MetadataResponseBroker3.overAt v 1 · t0) (MetadataResponseBroker3.overAt v 2 · t0) _)
    |>.andThen ((.field fun _ _ => rfl) : Sim (MetadataResponseBroker3.overAt v 2 · t0) (MetadataResponseBroker3.overAt v 3 · t0) _)
    |>.andThen ((.onlyIf (fun hc => .field fun _ _ => by simp only [MetadataResponseBroker3.overAt, if_pos hc]; rfl) fun hc _ => by simp only [MetadataResponseBroker3.overAt, if_neg hc]; rfl) : Sim (MetadataResponseBroker3.overAt v 3 · t0) (MetadataResponseBroker3.overAt v 4 · t0) _)
theorem MetadataResponseBroker3.reusable : MetadataResponseBroker3.reuse.Holds MetadataResponseBroker3.layout where
  decode v t0 d := by
    have h := MetadataResponseBroker3.sim v t0 {} d
    have e : MetadataResponseBroker3.overAt v 0 {} t0 = t0 := by first | rfl | (simp only [MetadataResponseBroker3.overAt, upto_zero, Option.none_or, ite_self] <;> rfl)
    simp only [e] at h
    exact h
  same v y t0 _h := (app_congr (app_congr (app_congr rfl rfl) rfl) (again_opt Wire.string y.Rack t0.Rack))
  stale _ _ h := h.elim

/-- What `t0` becomes where a new `MetadataResponsePartition3` becomes `y`. -/
def MetadataResponsePartition3.over (version : Int16) (y t0 : MetadataResponsePartition3) : MetadataResponsePartition3 :=
  { ErrorCode := y.ErrorCode,
    PartitionIndex := y.PartitionIndex,
    LeaderId := y.LeaderId,
    LeaderEpoch := if version ≥ 7 then y.LeaderEpoch else t0.LeaderEpoch,
    ReplicaNodes := y.ReplicaNodes,
    IsrNodes := y.IsrNodes,
    OfflineReplicas := if version ≥ 5 then y.OfflineReplicas else t0.OfflineReplicas }

/-- An array of structures is nil. -/
def MetadataResponsePartition3.Nulls (_version : Int16) (_y : MetadataResponsePartition3) : Prop :=
  False

/-- `MetadataResponsePartition3` in use again. -/
def MetadataResponsePartition3.reuse : Reuse MetadataResponsePartition3.type := { over := MetadataResponsePartition3.over, Nulls := MetadataResponsePartition3.Nulls }

/-- The same after the first `k` statements of `Decode`. -/
def MetadataResponsePartition3.overAt (version : Int16) (k : Nat) (y t0 : MetadataResponsePartition3) : MetadataResponsePartition3 :=
  { ErrorCode := upto k 0 (y.ErrorCode) t0.ErrorCode,
    PartitionIndex := upto k 1 (y.PartitionIndex) t0.PartitionIndex,
    LeaderId := upto k 2 (y.LeaderId) t0.LeaderId,
    LeaderEpoch := upto k 3 (if version ≥ 7 then y.LeaderEpoch else t0.LeaderEpoch) t0.LeaderEpoch,
    ReplicaNodes := upto k 4 (y.ReplicaNodes) t0.ReplicaNodes,
    IsrNodes := upto k 5 (y.IsrNodes) t0.IsrNodes,
    OfflineReplicas := upto k 6 (if version ≥ 5 then y.OfflineReplicas else t0.OfflineReplicas) t0.OfflineReplicas }

theorem MetadataResponsePartition3.sim (v : Int16) (t0 : MetadataResponsePartition3) : Sim (MetadataResponsePartition3.overAt v 0 · t0) (MetadataResponsePartition3.overAt v 7 · t0) (MetadataResponsePartition3.decode v) :=
  ((.field fun _ _ => rfl) : Sim (MetadataResponsePartition3.overAt v 0 · t0) (MetadataResponsePartition3.overAt v 1 · t0) _)
    |>.andThen ((.field fun _ _ => rfl) : Sim (MetadataResponsePartition3.overAt v 1 · t0) (MetadataResponsePartition3.overAt v 2 · t0) _)
    |>.andThen ((.field fun _ _ => rfl) : Sim (MetadataResponsePartition3.overAt v 2 · t0) (MetadataResponsePartition3.overAt v 3 · t0) _)
    |>.andThen ((.onlyIf (fun hc => .field fun _ _ => by simp only [MetadataResponsePartition3.overAt, if_pos hc]; rfl) fun hc _ => by simp only [MetadataResponsePartition3.overAt, if_neg hc]; rfl) : Sim (MetadataResponsePartition3.overAt v 3 · t0) (MetadataResponsePartition3.overAt v 4 · t0) _)
    |>.andThen ((.field fun _ _ => rfl) : Sim (MetadataResponsePartition3.overAt v 4 · t0) (MetadataResponsePartition3.overAt v 5 · t0) _)
    |>.andThen ((.field fun _ _ => rfl) : Sim (MetadataResponsePartition3.overAt v 5 · t0) (MetadataResponsePartition3.overAt v 6 · t0) _)
    |>.andThen ((.onlyIf (fun hc => .field fun _ _ => by simp only [MetadataResponsePartition3.overAt, if_pos hc]; rfl) fun hc _ => by simp only [MetadataResponsePartition3.overAt, if_neg hc]; rfl) : Sim (MetadataResponsePartition3.overAt v 6 · t0) (MetadataResponsePartition3.overAt v 7 · t0) _)
theorem MetadataResponsePartition3.reusable : MetadataResponsePartition3.reuse.Holds MetadataResponsePartition3.layout where
  decode v t0 d := by
    have h := MetadataResponsePartition3.sim v t0 {} d
    have e : MetadataResponsePartition3.overAt v 0 {} t0 = t0 := by first | rfl | (simp only [MetadataResponsePartition3.overAt, upto_zero, Option.none_or, ite_self] <;> rfl)
    simp only [e] at h
    exact h
  same v y t0 h := (app_congr (app_congr (app_congr (app_congr (app_congr (app_congr rfl rfl) rfl) (again_opt Wire.int32 y.LeaderEpoch t0.LeaderEpoch)) rfl) rfl) (again_opt Wire.int32Array y.OfflineReplicas t0.OfflineReplicas))
  stale _ _ h := h.elim

/-- What `t0` becomes where a new `MetadataResponseTopic3` becomes `y`. -/
def MetadataResponseTopic3.over (version : Int16) (y t0 : MetadataResponseTopic3) : MetadataResponseTopic3 :=
  { ErrorCode := y.ErrorCode,
    Name := y.Name,
    IsInternal := if version ≥ 1 then y.IsInternal else t0.IsInternal,
    Partitions := y.Partitions.or t0.Partitions,
    TopicAuthorizedOperations := if version ≥ 8 then y.TopicAuthorizedOperations else t0.TopicAuthorizedOperations }

/-- An array of structures is nil. -/
def MetadataResponseTopic3.Nulls (_version : Int16) (y : MetadataResponseTopic3) : Prop :=
  y.Partitions = none

/-- `MetadataResponseTopic3` in use again. -/
def MetadataResponseTopic3.reuse : Reuse MetadataResponseTopic3.type := { over := MetadataResponseTopic3.over, Nulls := MetadataResponseTopic3.Nulls }

/-- The same after the first `k` statements of `Decode`. -/
def MetadataResponseTopic3.overAt (version : Int16) (k : Nat) (y t0 : MetadataResponseTopic3) : MetadataResponseTopic3 :=
  { ErrorCode := upto k 0 (y.ErrorCode) t0.ErrorCode,
    Name := upto k 1 (y.Name) t0.Name,
    IsInternal := upto k 2 (if version ≥ 1 then y.IsInternal else t0.IsInternal) t0.IsInternal,
    Partitions := y.Partitions.or t0.Partitions,
    TopicAuthorizedOperations := upto k 4 (if version ≥ 8 then y.TopicAuthorizedOperations else t0.TopicAuthorizedOperations) t0.TopicAuthorizedOperations }

theorem MetadataResponseTopic3.sim (v : Int16) (t0 : MetadataResponseTopic3) : Sim (MetadataResponseTopic3.overAt v 0 · t0) (MetadataResponseTopic3.overAt v 5 · t0) (MetadataResponseTopic3.decode v) :=
  ((.field fun _ _ => rfl) : Sim (MetadataResponseTopic3.overAt v 0 · t0) (MetadataResponseTopic3.overAt v 1 · t0) _)
    |>.andThen ((.field fun _ _ => rfl) : Sim (MetadataResponseTopic3.overAt v 1 · t0) (MetadataResponseTopic3.overAt v 2 · t0) _)
    |>.andThen ((.onlyIf (fun hc => .field fun _ _ => by simp only [MetadataResponseTopic3.overAt, if_pos hc]; rfl) fun hc _ => by simp only [MetadataResponseTopic3.overAt, if_neg hc]; rfl) : Sim (MetadataResponseTopic3.overAt v 2 · t0) (MetadataResponseTopic3.overAt v 3 · t0) _)
    |>.andThen ((.structs (fun _ _ => rfl) fun _ => rfl) : Sim (MetadataResponseTopic3.overAt v 3 · t0) (MetadataResponseTopic3.overAt v 4 · t0) _)
    |>.andThen ((.onlyIf (fun hc => .field fun _ _ => by simp only [MetadataResponseTopic3.overAt, if_pos hc]; rfl) fun hc _ => by simp only [MetadataResponseTopic3.overAt, if_neg hc]; rfl) : Sim (MetadataResponseTopic3.overAt v 4 · t0) (MetadataResponseTopic3.overAt v 5 · t0) _)
theorem MetadataResponseTopic3.reusable : MetadataResponseTopic3.reuse.Holds MetadataResponseTopic3.layout where
  decode v t0 d := by
    have h := MetadataResponseTopic3.sim v t0 {} d
    have e : MetadataResponseTopic3.overAt v 0 {} t0 = t0 := by first | rfl | (simp only [MetadataResponseTopic3.overAt, upto_zero, Option.none_or, ite_self] <;> rfl)
    simp only [e] at h
    exact h
  same v y t0 h := (app_congr (app_congr (app_congr (app_congr rfl rfl) (again_opt Wire.bool y.IsInternal t0.IsInternal)) (same_or fun hn => h (hn))) (again_opt Wire.int32 y.TopicAuthorizedOperations t0.TopicAuthorizedOperations))
  stale v y h := by
    obtain h := h
    · exact ⟨({ Partitions := some [{}] } : MetadataResponseTopic3), (app_ne_left (app_ne_right (app_congr (app_congr rfl rfl) (again_opt Wire.bool y.IsInternal false)) (stale_or h)) (again_opt Wire.int32 y.TopicAuthorizedOperations 0))⟩

/-- What `t0` becomes where a new `MetadataResponse` becomes `y`. -/
def MetadataResponse.over (version : Int16) (y t0 : MetadataResponse) : MetadataResponse :=
  { ThrottleTimeMs := if version ≥ 3 then y.ThrottleTimeMs else t0.ThrottleTimeMs,
    Brokers := y.Brokers.or t0.Brokers,
    ClusterId := if version ≥ 2 then y.ClusterId else t0.ClusterId,
    ControllerId := if version ≥ 1 then y.ControllerId else t0.ControllerId,
    Topics := y.Topics.or t0.Topics,
    ClusterAuthorizedOperations := if version ≥ 8 then y.ClusterAuthorizedOperations else t0.ClusterAuthorizedOperations }

/-- An array of structures is nil. -/
def MetadataResponse.Nulls (_version : Int16) (y : MetadataResponse) : Prop :=
  y.Brokers = none ∨ y.Topics = none

/-- `MetadataResponse` in use again. -/
def MetadataResponse.reuse : Reuse MetadataResponse.type := { over := MetadataResponse.over, Nulls := MetadataResponse.Nulls }

/-- The same after the first `k` statements of `Decode`. -/
def MetadataResponse.overAt (version : Int16) (k : Nat) (y t0 : MetadataResponse) : MetadataResponse :=
  { ThrottleTimeMs := upto k 0 (if version ≥ 3 then y.ThrottleTimeMs else t0.ThrottleTimeMs) t0.ThrottleTimeMs,
    Brokers := y.Brokers.or t0.Brokers,
    ClusterId := upto k 2 (if version ≥ 2 then y.ClusterId else t0.ClusterId) t0.ClusterId,
    ControllerId := upto k 3 (if version ≥ 1 then y.ControllerId else t0.ControllerId) t0.ControllerId,
    Topics := y.Topics.or t0.Topics,
    ClusterAuthorizedOperations := upto k 5 (if version ≥ 8 then y.ClusterAuthorizedOperations else t0.ClusterAuthorizedOperations) t0.ClusterAuthorizedOperations }

theorem MetadataResponse.sim (v : Int16) (t0 : MetadataResponse) : Sim (MetadataResponse.overAt v 0 · t0) (MetadataResponse.overAt v 6 · t0) (MetadataResponse.decode v) :=
  ((.onlyIf (fun hc => .field fun _ _ => by simp only [MetadataResponse.overAt, if_pos hc]; rfl) fun hc _ => by simp only [MetadataResponse.overAt, if_neg hc]; rfl) : Sim (MetadataResponse.overAt v 0 · t0) (MetadataResponse.overAt v 1 · t0) _)
    |>.andThen ((.structs (fun _ _ => rfl) fun _ => rfl) : Sim (MetadataResponse.overAt v 1 · t0) (MetadataResponse.overAt v 2 · t0) _)
    |>.andThen ((.onlyIf (fun hc => .field fun _ _ => by simp only [MetadataResponse.overAt, if_pos hc]; rfl) fun hc _ => by simp only [MetadataResponse.overAt, if_neg hc]; rfl) : Sim (MetadataResponse.overAt v 2 · t0) (MetadataResponse.overAt v 3 · t0) _)
    |>.andThen ((.onlyIf (fun hc => .field fun _ _ => by simp only [MetadataResponse.overAt, if_pos hc]; rfl) fun hc _ => by simp only [MetadataResponse.overAt, if_neg hc]; rfl) : Sim (MetadataResponse.overAt v 3 · t0) (MetadataResponse.overAt v 4 · t0) _)
    |>.andThen ((.structs (fun _ _ => rfl) fun _ => rfl) : Sim (MetadataResponse.overAt v 4 · t0) (MetadataResponse.overAt v 5 · t0) _)
    |>.andThen ((.onlyIf (fun hc => .field fun _ _ => by simp only [MetadataResponse.overAt, if_pos hc]; rfl) fun hc _ => by simp only [MetadataResponse.overAt, if_neg hc]; rfl) : Sim (MetadataResponse.overAt v 5 · t0) (MetadataResponse.overAt v 6 · t0) _)
theorem MetadataResponse.reusable : MetadataResponse.reuse.Holds MetadataResponse.layout where
  decode v t0 d := by
    have h := MetadataResponse.sim v t0 {} d
    have e : MetadataResponse.overAt v 0 {} t0 = t0 := by first | rfl | (simp only [MetadataResponse.overAt, upto_zero, Option.none_or, ite_self] <;> rfl)
    simp only [e] at h
    exact h
  same v y t0 h := (app_congr (app_congr (app_congr (app_congr (app_congr (again_opt Wire.int32 y.ThrottleTimeMs t0.ThrottleTimeMs) (same_or fun hn => h (Or.inl hn))) (again_opt Wire.string y.ClusterId t0.ClusterId)) (again_opt Wire.int32 y.ControllerId t0.ControllerId)) (same_or fun hn => h (Or.inr (hn)))) (again_opt Wire.int32 y.ClusterAuthorizedOperations t0.ClusterAuthorizedOperations))
  stale v y h := by
    obtain h | h := h
    · exact ⟨({ Brokers := some [{}] } : MetadataResponse), (app_ne_left (app_ne_left (app_ne_left (app_ne_left (app_ne_right (again_opt Wire.int32 y.ThrottleTimeMs 0) (stale_or h)) (again_opt Wire.string y.ClusterId [])) (again_opt Wire.int32 y.ControllerId 0)) none_or) (again_opt Wire.int32 y.ClusterAuthorizedOperations 0))⟩
    · exact ⟨({ Topics := some [{}] } : MetadataResponse), (app_ne_left (app_ne_right (app_congr (app_congr (app_congr (again_opt Wire.int32 y.ThrottleTimeMs 0) none_or) (again_opt Wire.string y.ClusterId [])) (again_opt Wire.int32 y.ControllerId 0)) (stale_or h)) (again_opt Wire.int32 y.ClusterAuthorizedOperations 0))⟩

/-- The structures of the Metadata messages. -/
def reuseMetadata : List (Σ (M : MsgType) (_ : Layout M), Reuse M) :=
  [⟨MetadataRequest.type, MetadataRequest.layout, MetadataRequest.reuse⟩,
   ⟨MetadataRequestTopic3.type, MetadataRequestTopic3.layout, MetadataRequestTopic3.reuse⟩,
   ⟨MetadataResponse.type, MetadataResponse.layout, MetadataResponse.reuse⟩,
   ⟨MetadataResponseBroker3.type, MetadataResponseBroker3.layout, MetadataResponseBroker3.reuse⟩,
   ⟨MetadataResponseTopic3.type, MetadataResponseTopic3.layout, MetadataResponseTopic3.reuse⟩,
   ⟨MetadataResponsePartition3.type, MetadataResponsePartition3.layout, MetadataResponsePartition3.reuse⟩]
theorem reuseMetadata_holds : ∀ p ∈ reuseMetadata, p.2.2.Holds p.2.1 := by
  unfold reuseMetadata
  simp only [List.forall_mem_cons]
  exact ⟨MetadataRequest.reusable, MetadataRequestTopic3.reusable, MetadataResponse.reusable, MetadataResponseBroker3.reusable, MetadataResponseTopic3.reusable, MetadataResponsePartition3.reusable, fun _ h => absurd h (by simp)⟩

end Kafka.Msg
