import Verif.Message.Gate
import Verif.Gen.Spec.Metadata
/-!
Generated by tools/gen_messages.py: the version-dependent fields of the Metadata messages.
-/
set_option linter.unusedSimpArgs false
namespace Kafka.Msg

/-- `t.AllowAutoTopicCreation = x` -/
def MetadataRequest_with_AllowAutoTopicCreation (t : MetadataRequest) (x : Bool) : MetadataRequest := { t with AllowAutoTopicCreation := x }
/-- `MetadataRequest.AllowAutoTopicCreation` -/
def MetadataRequest.gateAllowAutoTopicCreation : Gate :=
  { M := MetadataRequest.type, L := MetadataRequest.layout, field := "AllowAutoTopicCreation", α := Bool, present := fun v => v ≥ 4,
    get := fun t => MetadataRequest.AllowAutoTopicCreation t, set := fun t x => MetadataRequest_with_AllowAutoTopicCreation t x }
theorem MetadataRequest.gateAllowAutoTopicCreation_holds : MetadataRequest.gateAllowAutoTopicCreation.Holds where
  get_set _ _ := rfl
  encode v h t x := by
    change MetadataRequest.encode v (MetadataRequest_with_AllowAutoTopicCreation t x) = MetadataRequest.encode v t
    change ¬(v ≥ 4) at h
    simp only [MetadataRequest.encode, MetadataRequest_with_AllowAutoTopicCreation, onlyIf_neg h]
  size v h t x := by
    change MetadataRequest.size v (MetadataRequest_with_AllowAutoTopicCreation t x) = MetadataRequest.size v t
    change ¬(v ≥ 4) at h
    simp only [MetadataRequest.size, MetadataRequest_with_AllowAutoTopicCreation, onlyIf_neg h]
  decode v h := by
    change ¬(v ≥ 4) at h
    refine (?_ : Keeps (fun t : MetadataRequest => t.AllowAutoTopicCreation) (MetadataRequest.decode v))
    unfold MetadataRequest.decode
    repeat' first
      | exact Keeps.absent h
      | apply Keeps.andThen
      | exact Keeps.field fun _ _ => rfl
      | exact Keeps.fieldStructs fun _ _ => rfl
      | apply Keeps.onlyIf
  carried v h t t0 t1 := by
    change (MetadataRequest.seen v t t0).AllowAutoTopicCreation = (MetadataRequest.seen v t t1).AllowAutoTopicCreation
    change v ≥ 4 at h
    simp only [MetadataRequest.seen, if_pos h]

/-- `t.IncludeClusterAuthorizedOperations = x` -/
def MetadataRequest_with_IncludeClusterAuthorizedOperations (t : MetadataRequest) (x : Bool) : MetadataRequest := { t with IncludeClusterAuthorizedOperations := x }
/-- `MetadataRequest.IncludeClusterAuthorizedOperations` -/
def MetadataRequest.gateIncludeClusterAuthorizedOperations : Gate :=
  { M := MetadataRequest.type, L := MetadataRequest.layout, field := "IncludeClusterAuthorizedOperations", α := Bool, present := fun v => v ≥ 8,
    get := fun t => MetadataRequest.IncludeClusterAuthorizedOperations t, set := fun t x => MetadataRequest_with_IncludeClusterAuthorizedOperations t x }
theorem MetadataRequest.gateIncludeClusterAuthorizedOperations_holds : MetadataRequest.gateIncludeClusterAuthorizedOperations.Holds where
  get_set _ _ := rfl
  encode v h t x := by
    change MetadataRequest.encode v (MetadataRequest_with_IncludeClusterAuthorizedOperations t x) = MetadataRequest.encode v t
    change ¬(v ≥ 8) at h
    simp only [MetadataRequest.encode, MetadataRequest_with_IncludeClusterAuthorizedOperations, onlyIf_neg h]
  size v h t x := by
    change MetadataRequest.size v (MetadataRequest_with_IncludeClusterAuthorizedOperations t x) = MetadataRequest.size v t
    change ¬(v ≥ 8) at h
    simp only [MetadataRequest.size, MetadataRequest_with_IncludeClusterAuthorizedOperations, onlyIf_neg h]
  decode v h := by
    change ¬(v ≥ 8) at h
    refine (?_ : Keeps (fun t : MetadataRequest => t.IncludeClusterAuthorizedOperations) (MetadataRequest.decode v))
    unfold MetadataRequest.decode
    repeat' first
      | exact Keeps.absent h
      | apply Keeps.andThen
      | exact Keeps.field fun _ _ => rfl
      | exact Keeps.fieldStructs fun _ _ => rfl
      | apply Keeps.onlyIf
  carried v h t t0 t1 := by
    change (MetadataRequest.seen v t t0).IncludeClusterAuthorizedOperations = (MetadataRequest.seen v t t1).IncludeClusterAuthorizedOperations
    change v ≥ 8 at h
    simp only [MetadataRequest.seen, if_pos h]

/-- `t.IncludeTopicAuthorizedOperations = x` -/
def MetadataRequest_with_IncludeTopicAuthorizedOperations (t : MetadataRequest) (x : Bool) : MetadataRequest := { t with IncludeTopicAuthorizedOperations := x }
/-- `MetadataRequest.IncludeTopicAuthorizedOperations` -/
def MetadataRequest.gateIncludeTopicAuthorizedOperations : Gate :=
  { M := MetadataRequest.type, L := MetadataRequest.layout, field := "IncludeTopicAuthorizedOperations", α := Bool, present := fun v => v ≥ 8,
    get := fun t => MetadataRequest.IncludeTopicAuthorizedOperations t, set := fun t x => MetadataRequest_with_IncludeTopicAuthorizedOperations t x }
theorem MetadataRequest.gateIncludeTopicAuthorizedOperations_holds : MetadataRequest.gateIncludeTopicAuthorizedOperations.Holds where
  get_set _ _ := rfl
  encode v h t x := by
    change MetadataRequest.encode v (MetadataRequest_with_IncludeTopicAuthorizedOperations t x) = MetadataRequest.encode v t
    change ¬(v ≥ 8) at h
    simp only [MetadataRequest.encode, MetadataRequest_with_IncludeTopicAuthorizedOperations, onlyIf_neg h]
  size v h t x := by
    change MetadataRequest.size v (MetadataRequest_with_IncludeTopicAuthorizedOperations t x) = MetadataRequest.size v t
    change ¬(v ≥ 8) at h
    simp only [MetadataRequest.size, MetadataRequest_with_IncludeTopicAuthorizedOperations, onlyIf_neg h]
  decode v h := by
    change ¬(v ≥ 8) at h
    refine (?_ : Keeps (fun t : MetadataRequest => t.IncludeTopicAuthorizedOperations) (MetadataRequest.decode v))
    unfold MetadataRequest.decode
    repeat' first
      | exact Keeps.absent h
      | apply Keeps.andThen
      | exact Keeps.field fun _ _ => rfl
      | exact Keeps.fieldStructs fun _ _ => rfl
      | apply Keeps.onlyIf
  carried v h t t0 t1 := by
    change (MetadataRequest.seen v t t0).IncludeTopicAuthorizedOperations = (MetadataRequest.seen v t t1).IncludeTopicAuthorizedOperations
    change v ≥ 8 at h
    simp only [MetadataRequest.seen, if_pos h]

/-- `t.ThrottleTimeMs = x` -/
def MetadataResponse_with_ThrottleTimeMs (t : MetadataResponse) (x : Int32) : MetadataResponse := { t with ThrottleTimeMs := x }
/-- `MetadataResponse.ThrottleTimeMs` -/
def MetadataResponse.gateThrottleTimeMs : Gate :=
  { M := MetadataResponse.type, L := MetadataResponse.layout, field := "ThrottleTimeMs", α := Int32, present := fun v => v ≥ 3,
    get := fun t => MetadataResponse.ThrottleTimeMs t, set := fun t x => MetadataResponse_with_ThrottleTimeMs t x }
theorem MetadataResponse.gateThrottleTimeMs_holds : MetadataResponse.gateThrottleTimeMs.Holds where
  get_set _ _ := rfl
  encode v h t x := by
    change MetadataResponse.encode v (MetadataResponse_with_ThrottleTimeMs t x) = MetadataResponse.encode v t
    change ¬(v ≥ 3) at h
    simp only [MetadataResponse.encode, MetadataResponse_with_ThrottleTimeMs, onlyIf_neg h]
  size v h t x := by
    change MetadataResponse.size v (MetadataResponse_with_ThrottleTimeMs t x) = MetadataResponse.size v t
    change ¬(v ≥ 3) at h
    simp only [MetadataResponse.size, MetadataResponse_with_ThrottleTimeMs, onlyIf_neg h]
  decode v h := by
    change ¬(v ≥ 3) at h
    refine (?_ : Keeps (fun t : MetadataResponse => t.ThrottleTimeMs) (MetadataResponse.decode v))
    unfold MetadataResponse.decode
    repeat' first
      | exact Keeps.absent h
      | apply Keeps.andThen
      | exact Keeps.field fun _ _ => rfl
      | exact Keeps.fieldStructs fun _ _ => rfl
      | apply Keeps.onlyIf
  carried v h t t0 t1 := by
    change (MetadataResponse.seen v t t0).ThrottleTimeMs = (MetadataResponse.seen v t t1).ThrottleTimeMs
    change v ≥ 3 at h
    simp only [MetadataResponse.seen, if_pos h]

/-- `t.ClusterId = x` -/
def MetadataResponse_with_ClusterId (t : MetadataResponse) (x : GoString) : MetadataResponse := { t with ClusterId := x }
/-- `MetadataResponse.ClusterId` -/
def MetadataResponse.gateClusterId : Gate :=
  { M := MetadataResponse.type, L := MetadataResponse.layout, field := "ClusterId", α := GoString, present := fun v => v ≥ 2,
    get := fun t => MetadataResponse.ClusterId t, set := fun t x => MetadataResponse_with_ClusterId t x }
theorem MetadataResponse.gateClusterId_holds : MetadataResponse.gateClusterId.Holds where
  get_set _ _ := rfl
  encode v h t x := by
    change MetadataResponse.encode v (MetadataResponse_with_ClusterId t x) = MetadataResponse.encode v t
    change ¬(v ≥ 2) at h
    simp only [MetadataResponse.encode, MetadataResponse_with_ClusterId, onlyIf_neg h]
  size v h t x := by
    change MetadataResponse.size v (MetadataResponse_with_ClusterId t x) = MetadataResponse.size v t
    change ¬(v ≥ 2) at h
    simp only [MetadataResponse.size, MetadataResponse_with_ClusterId, onlyIf_neg h]
  decode v h := by
    change ¬(v ≥ 2) at h
    refine (?_ : Keeps (fun t : MetadataResponse => t.ClusterId) (MetadataResponse.decode v))
    unfold MetadataResponse.decode
    repeat' first
      | exact Keeps.absent h
      | apply Keeps.andThen
      | exact Keeps.field fun _ _ => rfl
      | exact Keeps.fieldStructs fun _ _ => rfl
      | apply Keeps.onlyIf
  carried v h t t0 t1 := by
    change (MetadataResponse.seen v t t0).ClusterId = (MetadataResponse.seen v t t1).ClusterId
    change v ≥ 2 at h
    simp only [MetadataResponse.seen, if_pos h]

/-- `t.ControllerId = x` -/
def MetadataResponse_with_ControllerId (t : MetadataResponse) (x : Int32) : MetadataResponse := { t with ControllerId := x }
/-- `MetadataResponse.ControllerId` -/
def MetadataResponse.gateControllerId : Gate :=
  { M := MetadataResponse.type, L := MetadataResponse.layout, field := "ControllerId", α := Int32, present := fun v => v ≥ 1,
    get := fun t => MetadataResponse.ControllerId t, set := fun t x => MetadataResponse_with_ControllerId t x }
theorem MetadataResponse.gateControllerId_holds : MetadataResponse.gateControllerId.Holds where
  get_set _ _ := rfl
  encode v h t x := by
    change MetadataResponse.encode v (MetadataResponse_with_ControllerId t x) = MetadataResponse.encode v t
    change ¬(v ≥ 1) at h
    simp only [MetadataResponse.encode, MetadataResponse_with_ControllerId, onlyIf_neg h]
  size v h t x := by
    change MetadataResponse.size v (MetadataResponse_with_ControllerId t x) = MetadataResponse.size v t
    change ¬(v ≥ 1) at h
    simp only [MetadataResponse.size, MetadataResponse_with_ControllerId, onlyIf_neg h]
  decode v h := by
    change ¬(v ≥ 1) at h
    refine (?_ : Keeps (fun t : MetadataResponse => t.ControllerId) (MetadataResponse.decode v))
    unfold MetadataResponse.decode
    repeat' first
      | exact Keeps.absent h
      | apply Keeps.andThen
      | exact Keeps.field fun _ _ => rfl
      | exact Keeps.fieldStructs fun _ _ => rfl
      | apply Keeps.onlyIf
  carried v h t t0 t1 := by
    change (MetadataResponse.seen v t t0).ControllerId = (MetadataResponse.seen v t t1).ControllerId
    change v ≥ 1 at h
    simp only [MetadataResponse.seen, if_pos h]

/-- `t.ClusterAuthorizedOperations = x` -/
def MetadataResponse_with_ClusterAuthorizedOperations (t : MetadataResponse) (x : Int32) : MetadataResponse := { t with ClusterAuthorizedOperations := x }
/-- `MetadataResponse.ClusterAuthorizedOperations` -/
def MetadataResponse.gateClusterAuthorizedOperations : Gate :=
  { M := MetadataResponse.type, L := MetadataResponse.layout, field := "ClusterAuthorizedOperations", α := Int32, present := fun v => v ≥ 8,
    get := fun t => MetadataResponse.ClusterAuthorizedOperations t, set := fun t x => MetadataResponse_with_ClusterAuthorizedOperations t x }
theorem MetadataResponse.gateClusterAuthorizedOperations_holds : MetadataResponse.gateClusterAuthorizedOperations.Holds where
  get_set _ _ := rfl
  encode v h t x := by
    change MetadataResponse.encode v (MetadataResponse_with_ClusterAuthorizedOperations t x) = MetadataResponse.encode v t
    change ¬(v ≥ 8) at h
    simp only [MetadataResponse.encode, MetadataResponse_with_ClusterAuthorizedOperations, onlyIf_neg h]
  size v h t x := by
    change MetadataResponse.size v (MetadataResponse_with_ClusterAuthorizedOperations t x) = MetadataResponse.size v t
    change ¬(v ≥ 8) at h
    simp only [MetadataResponse.size, MetadataResponse_with_ClusterAuthorizedOperations, onlyIf_neg h]
  decode v h := by
    change ¬(v ≥ 8) at h
    refine (?_ : Keeps (fun t : MetadataResponse => t.ClusterAuthorizedOperations) (MetadataResponse.decode v))
    unfold MetadataResponse.decode
    repeat' first
      | exact Keeps.absent h
      | apply Keeps.andThen
      | exact Keeps.field fun _ _ => rfl
      | exact Keeps.fieldStructs fun _ _ => rfl
      | apply Keeps.onlyIf
  carried v h t t0 t1 := by
    change (MetadataResponse.seen v t t0).ClusterAuthorizedOperations = (MetadataResponse.seen v t t1).ClusterAuthorizedOperations
    change v ≥ 8 at h
    simp only [MetadataResponse.seen, if_pos h]

/-- `t.Rack = x` -/
def MetadataResponseBroker3_with_Rack (t : MetadataResponseBroker3) (x : GoString) : MetadataResponseBroker3 := { t with Rack := x }
/-- `MetadataResponseBroker3.Rack` -/
def MetadataResponseBroker3.gateRack : Gate :=
  { M := MetadataResponseBroker3.type, L := MetadataResponseBroker3.layout, field := "Rack", α := GoString, present := fun v => v ≥ 1,
    get := fun t => MetadataResponseBroker3.Rack t, set := fun t x => MetadataResponseBroker3_with_Rack t x }
theorem MetadataResponseBroker3.gateRack_holds : MetadataResponseBroker3.gateRack.Holds where
  get_set _ _ := rfl
  encode v h t x := by
    change MetadataResponseBroker3.encode v (MetadataResponseBroker3_with_Rack t x) = MetadataResponseBroker3.encode v t
    change ¬(v ≥ 1) at h
    simp only [MetadataResponseBroker3.encode, MetadataResponseBroker3_with_Rack, onlyIf_neg h]
  size v h t x := by
    change MetadataResponseBroker3.size v (MetadataResponseBroker3_with_Rack t x) = MetadataResponseBroker3.size v t
    change ¬(v ≥ 1) at h
    simp only [MetadataResponseBroker3.size, MetadataResponseBroker3_with_Rack, onlyIf_neg h]
  decode v h := by
    change ¬(v ≥ 1) at h
    refine (?_ : Keeps (fun t : MetadataResponseBroker3 => t.Rack) (MetadataResponseBroker3.decode v))
    unfold MetadataResponseBroker3.decode
    repeat' first
      | exact Keeps.absent h
      | apply Keeps.andThen
      | exact Keeps.field fun _ _ => rfl
      | exact Keeps.fieldStructs fun _ _ => rfl
      | apply Keeps.onlyIf
  carried v h t t0 t1 := by
    change (MetadataResponseBroker3.seen v t t0).Rack = (MetadataResponseBroker3.seen v t t1).Rack
    change v ≥ 1 at h
    simp only [MetadataResponseBroker3.seen, if_pos h]

/-- `t.IsInternal = x` -/
def MetadataResponseTopic3_with_IsInternal (t : MetadataResponseTopic3) (x : Bool) : MetadataResponseTopic3 := { t with IsInternal := x }
/-- `MetadataResponseTopic3.IsInternal` -/
def MetadataResponseTopic3.gateIsInternal : Gate :=
  { M := MetadataResponseTopic3.type, L := MetadataResponseTopic3.layout, field := "IsInternal", α := Bool, present := fun v => v ≥ 1,
    get := fun t => MetadataResponseTopic3.IsInternal t, set := fun t x => MetadataResponseTopic3_with_IsInternal t x }
theorem MetadataResponseTopic3.gateIsInternal_holds : MetadataResponseTopic3.gateIsInternal.Holds where
  get_set _ _ := rfl
  encode v h t x := by
    change MetadataResponseTopic3.encode v (MetadataResponseTopic3_with_IsInternal t x) = MetadataResponseTopic3.encode v t
    change ¬(v ≥ 1) at h
    simp only [MetadataResponseTopic3.encode, MetadataResponseTopic3_with_IsInternal, onlyIf_neg h]
  size v h t x := by
    change MetadataResponseTopic3.size v (MetadataResponseTopic3_with_IsInternal t x) = MetadataResponseTopic3.size v t
    change ¬(v ≥ 1) at h
    simp only [MetadataResponseTopic3.size, MetadataResponseTopic3_with_IsInternal, onlyIf_neg h]
  decode v h := by
    change ¬(v ≥ 1) at h
    refine (?_ : Keeps (fun t : MetadataResponseTopic3 => t.IsInternal) (MetadataResponseTopic3.decode v))
    unfold MetadataResponseTopic3.decode
    repeat' first
      | exact Keeps.absent h
      | apply Keeps.andThen
      | exact Keeps.field fun _ _ => rfl
      | exact Keeps.fieldStructs fun _ _ => rfl
      | apply Keeps.onlyIf
  carried v h t t0 t1 := by
    change (MetadataResponseTopic3.seen v t t0).IsInternal = (MetadataResponseTopic3.seen v t t1).IsInternal
    change v ≥ 1 at h
    simp only [MetadataResponseTopic3.seen, if_pos h]

/-- `t.TopicAuthorizedOperations = x` -/
def MetadataResponseTopic3_with_TopicAuthorizedOperations (t : MetadataResponseTopic3) (x : Int32) : MetadataResponseTopic3 := { t with TopicAuthorizedOperations := x }
/-- `MetadataResponseTopic3.TopicAuthorizedOperations` -/
def MetadataResponseTopic3.gateTopicAuthorizedOperations : Gate :=
  { M := MetadataResponseTopic3.type, L := MetadataResponseTopic3.layout, field := "TopicAuthorizedOperations", α := Int32, present := fun v => v ≥ 8,
    get := fun t => MetadataResponseTopic3.TopicAuthorizedOperations t, set := fun t x => MetadataResponseTopic3_with_TopicAuthorizedOperations t x }
theorem MetadataResponseTopic3.gateTopicAuthorizedOperations_holds : MetadataResponseTopic3.gateTopicAuthorizedOperations.Holds where
  get_set _ _ := rfl
  encode v h t x := by
    change MetadataResponseTopic3.encode v (MetadataResponseTopic3_with_TopicAuthorizedOperations t x) = MetadataResponseTopic3.encode v t
    change ¬(v ≥ 8) at h
    simp only [MetadataResponseTopic3.encode, MetadataResponseTopic3_with_TopicAuthorizedOperations, onlyIf_neg h]
  size v h t x := by
    change MetadataResponseTopic3.size v (MetadataResponseTopic3_with_TopicAuthorizedOperations t x) = MetadataResponseTopic3.size v t
    change ¬(v ≥ 8) at h
    simp only [MetadataResponseTopic3.size, MetadataResponseTopic3_with_TopicAuthorizedOperations, onlyIf_neg h]
  decode v h := by
    change ¬(v ≥ 8) at h
    refine (?_ : Keeps (fun t : MetadataResponseTopic3 => t.TopicAuthorizedOperations) (MetadataResponseTopic3.decode v))
    unfold MetadataResponseTopic3.decode
    repeat' first
      | exact Keeps.absent h
      | apply Keeps.andThen
      | exact Keeps.field fun _ _ => rfl
      | exact Keeps.fieldStructs fun _ _ => rfl
      | apply Keeps.onlyIf
  carried v h t t0 t1 := by
    change (MetadataResponseTopic3.seen v t t0).TopicAuthorizedOperations = (MetadataResponseTopic3.seen v t t1).TopicAuthorizedOperations
    change v ≥ 8 at h
    simp only [MetadataResponseTopic3.seen, if_pos h]

/-- `t.LeaderEpoch = x` -/
def MetadataResponsePartition3_with_LeaderEpoch (t : MetadataResponsePartition3) (x : Int32) : MetadataResponsePartition3 := { t with LeaderEpoch := x }
/-- `MetadataResponsePartition3.LeaderEpoch` -/
def MetadataResponsePartition3.gateLeaderEpoch : Gate :=
  { M := MetadataResponsePartition3.type, L := MetadataResponsePartition3.layout, field := "LeaderEpoch", α := Int32, present := fun v => v ≥ 7,
    get := fun t => MetadataResponsePartition3.LeaderEpoch t, set := fun t x => MetadataResponsePartition3_with_LeaderEpoch t x }
theorem MetadataResponsePartition3.gateLeaderEpoch_holds : MetadataResponsePartition3.gateLeaderEpoch.Holds where
  get_set _ _ := rfl
  encode v h t x := by
    change MetadataResponsePartition3.encode v (MetadataResponsePartition3_with_LeaderEpoch t x) = MetadataResponsePartition3.encode v t
    change ¬(v ≥ 7) at h
    simp only [MetadataResponsePartition3.encode, MetadataResponsePartition3_with_LeaderEpoch, onlyIf_neg h]
  size v h t x := by
    change MetadataResponsePartition3.size v (MetadataResponsePartition3_with_LeaderEpoch t x) = MetadataResponsePartition3.size v t
    change ¬(v ≥ 7) at h
    simp only [MetadataResponsePartition3.size, MetadataResponsePartition3_with_LeaderEpoch, onlyIf_neg h]
  decode v h := by
    change ¬(v ≥ 7) at h
    refine (?_ : Keeps (fun t : MetadataResponsePartition3 => t.LeaderEpoch) (MetadataResponsePartition3.decode v))
    unfold MetadataResponsePartition3.decode
    repeat' first
      | exact Keeps.absent h
      | apply Keeps.andThen
      | exact Keeps.field fun _ _ => rfl
      | exact Keeps.fieldStructs fun _ _ => rfl
      | apply Keeps.onlyIf
  carried v h t t0 t1 := by
    change (MetadataResponsePartition3.seen v t t0).LeaderEpoch = (MetadataResponsePartition3.seen v t t1).LeaderEpoch
    change v ≥ 7 at h
    simp only [MetadataResponsePartition3.seen, if_pos h]

/-- `t.OfflineReplicas = x` -/
def MetadataResponsePartition3_with_OfflineReplicas (t : MetadataResponsePartition3) (x : Slice Int32) : MetadataResponsePartition3 := { t with OfflineReplicas := x }
/-- `MetadataResponsePartition3.OfflineReplicas` -/
def MetadataResponsePartition3.gateOfflineReplicas : Gate :=
  { M := MetadataResponsePartition3.type, L := MetadataResponsePartition3.layout, field := "OfflineReplicas", α := Slice Int32, present := fun v => v ≥ 5,
    get := fun t => MetadataResponsePartition3.OfflineReplicas t, set := fun t x => MetadataResponsePartition3_with_OfflineReplicas t x }
theorem MetadataResponsePartition3.gateOfflineReplicas_holds : MetadataResponsePartition3.gateOfflineReplicas.Holds where
  get_set _ _ := rfl
  encode v h t x := by
    change MetadataResponsePartition3.encode v (MetadataResponsePartition3_with_OfflineReplicas t x) = MetadataResponsePartition3.encode v t
    change ¬(v ≥ 5) at h
    simp only [MetadataResponsePartition3.encode, MetadataResponsePartition3_with_OfflineReplicas, onlyIf_neg h]
  size v h t x := by
    change MetadataResponsePartition3.size v (MetadataResponsePartition3_with_OfflineReplicas t x) = MetadataResponsePartition3.size v t
    change ¬(v ≥ 5) at h
    simp only [MetadataResponsePartition3.size, MetadataResponsePartition3_with_OfflineReplicas, onlyIf_neg h]
  decode v h := by
    change ¬(v ≥ 5) at h
    refine (?_ : Keeps (fun t : MetadataResponsePartition3 => t.OfflineReplicas) (MetadataResponsePartition3.decode v))
    unfold MetadataResponsePartition3.decode
    repeat' first
      | exact Keeps.absent h
      | apply Keeps.andThen
      | exact Keeps.field fun _ _ => rfl
      | exact Keeps.fieldStructs fun _ _ => rfl
      | apply Keeps.onlyIf
  carried v h t t0 t1 := by
    change (MetadataResponsePartition3.seen v t t0).OfflineReplicas = (MetadataResponsePartition3.seen v t t1).OfflineReplicas
    change v ≥ 5 at h
    simp only [MetadataResponsePartition3.seen, if_pos h]

/-- The version-dependent fields of the Metadata messages. -/
def gatesMetadata : List Gate :=
  [MetadataRequest.gateAllowAutoTopicCreation,
   MetadataRequest.gateIncludeClusterAuthorizedOperations,
   MetadataRequest.gateIncludeTopicAuthorizedOperations,
   MetadataResponse.gateThrottleTimeMs,
   MetadataResponse.gateClusterId,
   MetadataResponse.gateControllerId,
   MetadataResponse.gateClusterAuthorizedOperations,
   MetadataResponseBroker3.gateRack,
   MetadataResponseTopic3.gateIsInternal,
   MetadataResponseTopic3.gateTopicAuthorizedOperations,
   MetadataResponsePartition3.gateLeaderEpoch,
   MetadataResponsePartition3.gateOfflineReplicas]

theorem gatesMetadata_hold : ∀ g ∈ gatesMetadata, g.Holds := by
  unfold gatesMetadata
  simp only [List.forall_mem_cons]
  exact ⟨MetadataRequest.gateAllowAutoTopicCreation_holds,
    MetadataRequest.gateIncludeClusterAuthorizedOperations_holds,
    MetadataRequest.gateIncludeTopicAuthorizedOperations_holds,
    MetadataResponse.gateThrottleTimeMs_holds,
    MetadataResponse.gateClusterId_holds,
    MetadataResponse.gateControllerId_holds,
    MetadataResponse.gateClusterAuthorizedOperations_holds,
    MetadataResponseBroker3.gateRack_holds,
    MetadataResponseTopic3.gateIsInternal_holds,
    MetadataResponseTopic3.gateTopicAuthorizedOperations_holds,
    MetadataResponsePartition3.gateLeaderEpoch_holds,
    MetadataResponsePartition3.gateOfflineReplicas_holds,
    fun _ h => absurd h (by simp)⟩

end Kafka.Msg
