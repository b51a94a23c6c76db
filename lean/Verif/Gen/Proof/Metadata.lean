import Verif.Message.StepLemmas
import Verif.Gen.Spec.Metadata
/-!
Generated by tools/gen_messages.py: laws of the Metadata messages.
-/
namespace Kafka.Msg

theorem MetadataRequestTopic3.emits (version : Int16) (t : MetadataRequestTopic3) :
    Emits (MetadataRequestTopic3.encode version t) (MetadataRequestTopic3.wire version t) :=
  emits_string t.Name
theorem MetadataRequestTopic3.sized (version : Int16) (t : MetadataRequestTopic3) :
    Sized (MetadataRequestTopic3.size version t) (MetadataRequestTopic3.wire version t) :=
  Grows.sized (Grows.add (sized_string t.Name))
theorem MetadataRequestTopic3.reads (version : Int16) (t : MetadataRequestTopic3) (h : t.Fits version) (t0 : MetadataRequestTopic3) :
    Reads (MetadataRequestTopic3.decode version t0) (MetadataRequestTopic3.wire version t) (t.seen version t0) :=
  (Step.field (set := fun (t : MetadataRequestTopic3) x => { t with Name := x }) (reads_string h.Name) : Step _ _ _) t0
theorem MetadataRequestTopic3.tame (version : Int16) (t0 : MetadataRequestTopic3) : Tame (MetadataRequestTopic3.decode version t0) :=
  (TameStep.field tame_string : TameStep _) t0
theorem MetadataRequestTopic3.calm (version : Int16) (t0 : MetadataRequestTopic3) :
    Calm (MetadataRequestTopic3.decode version t0) (fun _ => True) :=
  (CalmStep.field tame_string calm_string : CalmStep _).2 t0
theorem MetadataRequestTopic3.canon (version : Int16) (t : MetadataRequestTopic3) (_h : t.Canon version) :
    t.seen version {} = t :=
  MetadataRequestTopic3.ext rfl
theorem MetadataRequestTopic3.again (version : Int16) (t t0 : MetadataRequestTopic3) :
    MetadataRequestTopic3.wire version (t.seen version t0) = MetadataRequestTopic3.wire version t :=
  rfl
theorem MetadataRequestTopic3.lawful : Lawful MetadataRequestTopic3.type MetadataRequestTopic3.layout :=
  ⟨MetadataRequestTopic3.emits, MetadataRequestTopic3.sized, MetadataRequestTopic3.reads, MetadataRequestTopic3.tame, MetadataRequestTopic3.calm, MetadataRequestTopic3.canon, MetadataRequestTopic3.again⟩

theorem MetadataRequest.emits (version : Int16) (t : MetadataRequest) :
    Emits (MetadataRequest.encode version t) (MetadataRequest.wire version t) :=
  (emits_structs (MetadataRequestTopic3.emits version) t.Topics)
    |>.andThen (Emits.onlyIf (emits_bool t.AllowAutoTopicCreation))
    |>.andThen (Emits.onlyIf (emits_bool t.IncludeClusterAuthorizedOperations))
    |>.andThen (Emits.onlyIf (emits_bool t.IncludeTopicAuthorizedOperations))
theorem MetadataRequest.sized (version : Int16) (t : MetadataRequest) :
    Sized (MetadataRequest.size version t) (MetadataRequest.wire version t) :=
  Grows.sized ((Grows.structs (MetadataRequestTopic3.sized version) t.Topics)
    |>.andThen (Grows.onlyIf (Grows.add (sized_bool t.AllowAutoTopicCreation)))
    |>.andThen (Grows.onlyIf (Grows.add (sized_bool t.IncludeClusterAuthorizedOperations)))
    |>.andThen (Grows.onlyIf (Grows.add (sized_bool t.IncludeTopicAuthorizedOperations))))
theorem MetadataRequest.reads (version : Int16) (t : MetadataRequest) (h : t.Fits version) (t0 : MetadataRequest) :
    Reads (MetadataRequest.decode version t0) (MetadataRequest.wire version t) (t.seen version t0) :=
  ((Step.structs (get := fun (t : MetadataRequest) => t.Topics) (set := fun (t : MetadataRequest) x => { t with Topics := x }) (fun x hx => MetadataRequestTopic3.reads version x hx {}) h.Topics)
    |>.andThen (Step.optField (c := version ≥ 4) (set := fun (t : MetadataRequest) x => { t with AllowAutoTopicCreation := x }) (·.AllowAutoTopicCreation) (fun _ => rfl) fun _ => reads_bool t.AllowAutoTopicCreation)
    |>.andThen (Step.optField (c := version ≥ 8) (set := fun (t : MetadataRequest) x => { t with IncludeClusterAuthorizedOperations := x }) (·.IncludeClusterAuthorizedOperations) (fun _ => rfl) fun _ => reads_bool t.IncludeClusterAuthorizedOperations)
    |>.andThen (Step.optField (c := version ≥ 8) (set := fun (t : MetadataRequest) x => { t with IncludeTopicAuthorizedOperations := x }) (·.IncludeTopicAuthorizedOperations) (fun _ => rfl) fun _ => reads_bool t.IncludeTopicAuthorizedOperations) : Step _ _ _) t0
theorem MetadataRequest.tame (version : Int16) (t0 : MetadataRequest) : Tame (MetadataRequest.decode version t0) :=
  ((TameStep.structs (MetadataRequestTopic3.tame version {}))
    |>.andThen (TameStep.onlyIf (TameStep.field tame_bool))
    |>.andThen (TameStep.onlyIf (TameStep.field tame_bool))
    |>.andThen (TameStep.onlyIf (TameStep.field tame_bool)) : TameStep _) t0
theorem MetadataRequest.calm (version : Int16) (t0 : MetadataRequest) :
    Calm (MetadataRequest.decode version t0) (fun _ => True) :=
  ((CalmStep.structs (MetadataRequestTopic3.tame version {}) (MetadataRequestTopic3.calm version {}))
    |>.andThen (CalmStep.onlyIf (CalmStep.field tame_bool calm_bool))
    |>.andThen (CalmStep.onlyIf (CalmStep.field tame_bool calm_bool))
    |>.andThen (CalmStep.onlyIf (CalmStep.field tame_bool calm_bool)) : CalmStep _).2 t0
theorem MetadataRequest.canon (version : Int16) (t : MetadataRequest) (h : t.Canon version) :
    t.seen version {} = t :=
  MetadataRequest.ext (canon_structs (MetadataRequestTopic3.canon version) h.Topics) (canon_opt h.AllowAutoTopicCreation) (canon_opt h.IncludeClusterAuthorizedOperations) (canon_opt h.IncludeTopicAuthorizedOperations)
theorem MetadataRequest.again (version : Int16) (t t0 : MetadataRequest) :
    MetadataRequest.wire version (t.seen version t0) = MetadataRequest.wire version t :=
  app_congr (app_congr (app_congr (again_structs (fun x => MetadataRequestTopic3.again version x {}) t.Topics) (again_opt Wire.bool t.AllowAutoTopicCreation t0.AllowAutoTopicCreation)) (again_opt Wire.bool t.IncludeClusterAuthorizedOperations t0.IncludeClusterAuthorizedOperations)) (again_opt Wire.bool t.IncludeTopicAuthorizedOperations t0.IncludeTopicAuthorizedOperations)
theorem MetadataRequest.lawful : Lawful MetadataRequest.type MetadataRequest.layout :=
  ⟨MetadataRequest.emits, MetadataRequest.sized, MetadataRequest.reads, MetadataRequest.tame, MetadataRequest.calm, MetadataRequest.canon, MetadataRequest.again⟩

theorem MetadataResponseBroker3.emits (version : Int16) (t : MetadataResponseBroker3) :
    Emits (MetadataResponseBroker3.encode version t) (MetadataResponseBroker3.wire version t) :=
  (emits_int32 t.NodeId)
    |>.andThen (emits_string t.Host)
    |>.andThen (emits_int32 t.Port)
    |>.andThen (Emits.onlyIf (emits_string t.Rack))
theorem MetadataResponseBroker3.sized (version : Int16) (t : MetadataResponseBroker3) :
    Sized (MetadataResponseBroker3.size version t) (MetadataResponseBroker3.wire version t) :=
  Grows.sized ((Grows.add (sized_int32 t.NodeId))
    |>.andThen (Grows.add (sized_string t.Host))
    |>.andThen (Grows.add (sized_int32 t.Port))
    |>.andThen (Grows.onlyIf (Grows.add (sized_string t.Rack))))
theorem MetadataResponseBroker3.reads (version : Int16) (t : MetadataResponseBroker3) (h : t.Fits version) (t0 : MetadataResponseBroker3) :
    Reads (MetadataResponseBroker3.decode version t0) (MetadataResponseBroker3.wire version t) (t.seen version t0) :=
  ((Step.field (set := fun (t : MetadataResponseBroker3) x => { t with NodeId := x }) (reads_int32 t.NodeId))
    |>.andThen (Step.field (set := fun (t : MetadataResponseBroker3) x => { t with Host := x }) (reads_string h.Host))
    |>.andThen (Step.field (set := fun (t : MetadataResponseBroker3) x => { t with Port := x }) (reads_int32 t.Port))
    |>.andThen (Step.optField (c := version ≥ 1) (set := fun (t : MetadataResponseBroker3) x => { t with Rack := x }) (·.Rack) (fun _ => rfl) fun hc => reads_string (h.Rack hc)) : Step _ _ _) t0
theorem MetadataResponseBroker3.tame (version : Int16) (t0 : MetadataResponseBroker3) : Tame (MetadataResponseBroker3.decode version t0) :=
  ((TameStep.field tame_int32)
    |>.andThen (TameStep.field tame_string)
    |>.andThen (TameStep.field tame_int32)
    |>.andThen (TameStep.onlyIf (TameStep.field tame_string)) : TameStep _) t0
theorem MetadataResponseBroker3.calm (version : Int16) (t0 : MetadataResponseBroker3) :
    Calm (MetadataResponseBroker3.decode version t0) (fun _ => True) :=
  ((CalmStep.field tame_int32 calm_int32)
    |>.andThen (CalmStep.field tame_string calm_string)
    |>.andThen (CalmStep.field tame_int32 calm_int32)
    |>.andThen (CalmStep.onlyIf (CalmStep.field tame_string calm_string)) : CalmStep _).2 t0
theorem MetadataResponseBroker3.canon (version : Int16) (t : MetadataResponseBroker3) (h : t.Canon version) :
    t.seen version {} = t :=
  MetadataResponseBroker3.ext rfl rfl rfl (canon_opt h.Rack)
theorem MetadataResponseBroker3.again (version : Int16) (t t0 : MetadataResponseBroker3) :
    MetadataResponseBroker3.wire version (t.seen version t0) = MetadataResponseBroker3.wire version t :=
  app_congr (app_congr (app_congr (rfl) (rfl)) (rfl)) (again_opt Wire.string t.Rack t0.Rack)
theorem MetadataResponseBroker3.lawful : Lawful MetadataResponseBroker3.type MetadataResponseBroker3.layout :=
  ⟨MetadataResponseBroker3.emits, MetadataResponseBroker3.sized, MetadataResponseBroker3.reads, MetadataResponseBroker3.tame, MetadataResponseBroker3.calm, MetadataResponseBroker3.canon, MetadataResponseBroker3.again⟩

theorem MetadataResponsePartition3.emits (version : Int16) (t : MetadataResponsePartition3) :
    Emits (MetadataResponsePartition3.encode version t) (MetadataResponsePartition3.wire version t) :=
  (emits_int16 t.ErrorCode)
    |>.andThen (emits_int32 t.PartitionIndex)
    |>.andThen (emits_int32 t.LeaderId)
    |>.andThen (Emits.onlyIf (emits_int32 t.LeaderEpoch))
    |>.andThen (emits_int32Array t.ReplicaNodes)
    |>.andThen (emits_int32Array t.IsrNodes)
    |>.andThen (Emits.onlyIf (emits_int32Array t.OfflineReplicas))
theorem MetadataResponsePartition3.sized (version : Int16) (t : MetadataResponsePartition3) :
    Sized (MetadataResponsePartition3.size version t) (MetadataResponsePartition3.wire version t) :=
  Grows.sized ((Grows.add (sized_int16 t.ErrorCode))
    |>.andThen (Grows.add (sized_int32 t.PartitionIndex))
    |>.andThen (Grows.add (sized_int32 t.LeaderId))
    |>.andThen (Grows.onlyIf (Grows.add (sized_int32 t.LeaderEpoch)))
    |>.andThen (Grows.add (sized_int32Array t.ReplicaNodes))
    |>.andThen (Grows.add (sized_int32Array t.IsrNodes))
    |>.andThen (Grows.onlyIf (Grows.add (sized_int32Array t.OfflineReplicas))))
theorem MetadataResponsePartition3.reads (version : Int16) (t : MetadataResponsePartition3) (h : t.Fits version) (t0 : MetadataResponsePartition3) :
    Reads (MetadataResponsePartition3.decode version t0) (MetadataResponsePartition3.wire version t) (t.seen version t0) :=
  ((Step.field (set := fun (t : MetadataResponsePartition3) x => { t with ErrorCode := x }) (reads_int16 t.ErrorCode))
    |>.andThen (Step.field (set := fun (t : MetadataResponsePartition3) x => { t with PartitionIndex := x }) (reads_int32 t.PartitionIndex))
    |>.andThen (Step.field (set := fun (t : MetadataResponsePartition3) x => { t with LeaderId := x }) (reads_int32 t.LeaderId))
    |>.andThen (Step.optField (c := version ≥ 7) (set := fun (t : MetadataResponsePartition3) x => { t with LeaderEpoch := x }) (·.LeaderEpoch) (fun _ => rfl) fun _ => reads_int32 t.LeaderEpoch)
    |>.andThen (Step.field (set := fun (t : MetadataResponsePartition3) x => { t with ReplicaNodes := x }) (reads_int32Array h.ReplicaNodes))
    |>.andThen (Step.field (set := fun (t : MetadataResponsePartition3) x => { t with IsrNodes := x }) (reads_int32Array h.IsrNodes))
    |>.andThen (Step.optField (c := version ≥ 5) (set := fun (t : MetadataResponsePartition3) x => { t with OfflineReplicas := x }) (·.OfflineReplicas) (fun _ => rfl) fun hc => reads_int32Array (h.OfflineReplicas hc)) : Step _ _ _) t0
theorem MetadataResponsePartition3.tame (version : Int16) (t0 : MetadataResponsePartition3) : Tame (MetadataResponsePartition3.decode version t0) :=
  ((TameStep.field tame_int16)
    |>.andThen (TameStep.field tame_int32)
    |>.andThen (TameStep.field tame_int32)
    |>.andThen (TameStep.onlyIf (TameStep.field tame_int32))
    |>.andThen (TameStep.field tame_int32Array)
    |>.andThen (TameStep.field tame_int32Array)
    |>.andThen (TameStep.onlyIf (TameStep.field tame_int32Array)) : TameStep _) t0
theorem MetadataResponsePartition3.calm (version : Int16) (t0 : MetadataResponsePartition3) :
    Calm (MetadataResponsePartition3.decode version t0) (fun _ => True) :=
  ((CalmStep.field tame_int16 calm_int16)
    |>.andThen (CalmStep.field tame_int32 calm_int32)
    |>.andThen (CalmStep.field tame_int32 calm_int32)
    |>.andThen (CalmStep.onlyIf (CalmStep.field tame_int32 calm_int32))
    |>.andThen (CalmStep.field tame_int32Array calm_int32Array)
    |>.andThen (CalmStep.field tame_int32Array calm_int32Array)
    |>.andThen (CalmStep.onlyIf (CalmStep.field tame_int32Array calm_int32Array)) : CalmStep _).2 t0
theorem MetadataResponsePartition3.canon (version : Int16) (t : MetadataResponsePartition3) (h : t.Canon version) :
    t.seen version {} = t :=
  MetadataResponsePartition3.ext rfl rfl rfl (canon_opt h.LeaderEpoch) rfl rfl (canon_opt h.OfflineReplicas)
theorem MetadataResponsePartition3.again (version : Int16) (t t0 : MetadataResponsePartition3) :
    MetadataResponsePartition3.wire version (t.seen version t0) = MetadataResponsePartition3.wire version t :=
  app_congr (app_congr (app_congr (app_congr (app_congr (app_congr (rfl) (rfl)) (rfl)) (again_opt Wire.int32 t.LeaderEpoch t0.LeaderEpoch)) (rfl)) (rfl)) (again_opt Wire.int32Array t.OfflineReplicas t0.OfflineReplicas)
theorem MetadataResponsePartition3.lawful : Lawful MetadataResponsePartition3.type MetadataResponsePartition3.layout :=
  ⟨MetadataResponsePartition3.emits, MetadataResponsePartition3.sized, MetadataResponsePartition3.reads, MetadataResponsePartition3.tame, MetadataResponsePartition3.calm, MetadataResponsePartition3.canon, MetadataResponsePartition3.again⟩

theorem MetadataResponseTopic3.emits (version : Int16) (t : MetadataResponseTopic3) :
    Emits (MetadataResponseTopic3.encode version t) (MetadataResponseTopic3.wire version t) :=
  (emits_int16 t.ErrorCode)
    |>.andThen (emits_string t.Name)
    |>.andThen (Emits.onlyIf (emits_bool t.IsInternal))
    |>.andThen (emits_structs (MetadataResponsePartition3.emits version) t.Partitions)
    |>.andThen (Emits.onlyIf (emits_int32 t.TopicAuthorizedOperations))
theorem MetadataResponseTopic3.sized (version : Int16) (t : MetadataResponseTopic3) :
    Sized (MetadataResponseTopic3.size version t) (MetadataResponseTopic3.wire version t) :=
  Grows.sized ((Grows.add (sized_int16 t.ErrorCode))
    |>.andThen (Grows.add (sized_string t.Name))
    |>.andThen (Grows.onlyIf (Grows.add (sized_bool t.IsInternal)))
    |>.andThen (Grows.structs (MetadataResponsePartition3.sized version) t.Partitions)
    |>.andThen (Grows.onlyIf (Grows.add (sized_int32 t.TopicAuthorizedOperations))))
theorem MetadataResponseTopic3.reads (version : Int16) (t : MetadataResponseTopic3) (h : t.Fits version) (t0 : MetadataResponseTopic3) :
    Reads (MetadataResponseTopic3.decode version t0) (MetadataResponseTopic3.wire version t) (t.seen version t0) :=
  ((Step.field (set := fun (t : MetadataResponseTopic3) x => { t with ErrorCode := x }) (reads_int16 t.ErrorCode))
    |>.andThen (Step.field (set := fun (t : MetadataResponseTopic3) x => { t with Name := x }) (reads_string h.Name))
    |>.andThen (Step.optField (c := version ≥ 1) (set := fun (t : MetadataResponseTopic3) x => { t with IsInternal := x }) (·.IsInternal) (fun _ => rfl) fun _ => reads_bool t.IsInternal)
    |>.andThen (Step.structs (get := fun (t : MetadataResponseTopic3) => t.Partitions) (set := fun (t : MetadataResponseTopic3) x => { t with Partitions := x }) (fun x hx => MetadataResponsePartition3.reads version x hx {}) h.Partitions)
    |>.andThen (Step.optField (c := version ≥ 8) (set := fun (t : MetadataResponseTopic3) x => { t with TopicAuthorizedOperations := x }) (·.TopicAuthorizedOperations) (fun _ => rfl) fun _ => reads_int32 t.TopicAuthorizedOperations) : Step _ _ _) t0
theorem MetadataResponseTopic3.tame (version : Int16) (t0 : MetadataResponseTopic3) : Tame (MetadataResponseTopic3.decode version t0) :=
  ((TameStep.field tame_int16)
    |>.andThen (TameStep.field tame_string)
    |>.andThen (TameStep.onlyIf (TameStep.field tame_bool))
    |>.andThen (TameStep.structs (MetadataResponsePartition3.tame version {}))
    |>.andThen (TameStep.onlyIf (TameStep.field tame_int32)) : TameStep _) t0
theorem MetadataResponseTopic3.calm (version : Int16) (t0 : MetadataResponseTopic3) :
    Calm (MetadataResponseTopic3.decode version t0) (fun _ => True) :=
  ((CalmStep.field tame_int16 calm_int16)
    |>.andThen (CalmStep.field tame_string calm_string)
    |>.andThen (CalmStep.onlyIf (CalmStep.field tame_bool calm_bool))
    |>.andThen (CalmStep.structs (MetadataResponsePartition3.tame version {}) (MetadataResponsePartition3.calm version {}))
    |>.andThen (CalmStep.onlyIf (CalmStep.field tame_int32 calm_int32)) : CalmStep _).2 t0
theorem MetadataResponseTopic3.canon (version : Int16) (t : MetadataResponseTopic3) (h : t.Canon version) :
    t.seen version {} = t :=
  MetadataResponseTopic3.ext rfl rfl (canon_opt h.IsInternal) (canon_structs (MetadataResponsePartition3.canon version) h.Partitions) (canon_opt h.TopicAuthorizedOperations)
theorem MetadataResponseTopic3.again (version : Int16) (t t0 : MetadataResponseTopic3) :
    MetadataResponseTopic3.wire version (t.seen version t0) = MetadataResponseTopic3.wire version t :=
  app_congr (app_congr (app_congr (app_congr (rfl) (rfl)) (again_opt Wire.bool t.IsInternal t0.IsInternal)) (again_structs (fun x => MetadataResponsePartition3.again version x {}) t.Partitions)) (again_opt Wire.int32 t.TopicAuthorizedOperations t0.TopicAuthorizedOperations)
theorem MetadataResponseTopic3.lawful : Lawful MetadataResponseTopic3.type MetadataResponseTopic3.layout :=
  ⟨MetadataResponseTopic3.emits, MetadataResponseTopic3.sized, MetadataResponseTopic3.reads, MetadataResponseTopic3.tame, MetadataResponseTopic3.calm, MetadataResponseTopic3.canon, MetadataResponseTopic3.again⟩

theorem MetadataResponse.emits (version : Int16) (t : MetadataResponse) :
    Emits (MetadataResponse.encode version t) (MetadataResponse.wire version t) :=
  (Emits.onlyIf (emits_int32 t.ThrottleTimeMs))
    |>.andThen (emits_structs (MetadataResponseBroker3.emits version) t.Brokers)
    |>.andThen (Emits.onlyIf (emits_string t.ClusterId))
    |>.andThen (Emits.onlyIf (emits_int32 t.ControllerId))
    |>.andThen (emits_structs (MetadataResponseTopic3.emits version) t.Topics)
    |>.andThen (Emits.onlyIf (emits_int32 t.ClusterAuthorizedOperations))
theorem MetadataResponse.sized (version : Int16) (t : MetadataResponse) :
    Sized (MetadataResponse.size version t) (MetadataResponse.wire version t) :=
  Grows.sized ((Grows.onlyIf (Grows.add (sized_int32 t.ThrottleTimeMs)))
    |>.andThen (Grows.structs (MetadataResponseBroker3.sized version) t.Brokers)
    |>.andThen (Grows.onlyIf (Grows.add (sized_string t.ClusterId)))
    |>.andThen (Grows.onlyIf (Grows.add (sized_int32 t.ControllerId)))
    |>.andThen (Grows.structs (MetadataResponseTopic3.sized version) t.Topics)
    |>.andThen (Grows.onlyIf (Grows.add (sized_int32 t.ClusterAuthorizedOperations))))
theorem MetadataResponse.reads (version : Int16) (t : MetadataResponse) (h : t.Fits version) (t0 : MetadataResponse) :
    Reads (MetadataResponse.decode version t0) (MetadataResponse.wire version t) (t.seen version t0) :=
  ((Step.optField (c := version ≥ 3) (set := fun (t : MetadataResponse) x => { t with ThrottleTimeMs := x }) (·.ThrottleTimeMs) (fun _ => rfl) fun _ => reads_int32 t.ThrottleTimeMs)
    |>.andThen (Step.structs (get := fun (t : MetadataResponse) => t.Brokers) (set := fun (t : MetadataResponse) x => { t with Brokers := x }) (fun x hx => MetadataResponseBroker3.reads version x hx {}) h.Brokers)
    |>.andThen (Step.optField (c := version ≥ 2) (set := fun (t : MetadataResponse) x => { t with ClusterId := x }) (·.ClusterId) (fun _ => rfl) fun hc => reads_string (h.ClusterId hc))
    |>.andThen (Step.optField (c := version ≥ 1) (set := fun (t : MetadataResponse) x => { t with ControllerId := x }) (·.ControllerId) (fun _ => rfl) fun _ => reads_int32 t.ControllerId)
    |>.andThen (Step.structs (get := fun (t : MetadataResponse) => t.Topics) (set := fun (t : MetadataResponse) x => { t with Topics := x }) (fun x hx => MetadataResponseTopic3.reads version x hx {}) h.Topics)
    |>.andThen (Step.optField (c := version ≥ 8) (set := fun (t : MetadataResponse) x => { t with ClusterAuthorizedOperations := x }) (·.ClusterAuthorizedOperations) (fun _ => rfl) fun _ => reads_int32 t.ClusterAuthorizedOperations) : Step _ _ _) t0
theorem MetadataResponse.tame (version : Int16) (t0 : MetadataResponse) : Tame (MetadataResponse.decode version t0) :=
  ((TameStep.onlyIf (TameStep.field tame_int32))
    |>.andThen (TameStep.structs (MetadataResponseBroker3.tame version {}))
    |>.andThen (TameStep.onlyIf (TameStep.field tame_string))
    |>.andThen (TameStep.onlyIf (TameStep.field tame_int32))
    |>.andThen (TameStep.structs (MetadataResponseTopic3.tame version {}))
    |>.andThen (TameStep.onlyIf (TameStep.field tame_int32)) : TameStep _) t0
theorem MetadataResponse.calm (version : Int16) (t0 : MetadataResponse) :
    Calm (MetadataResponse.decode version t0) (fun _ => True) :=
  ((CalmStep.onlyIf (CalmStep.field tame_int32 calm_int32))
    |>.andThen (CalmStep.structs (MetadataResponseBroker3.tame version {}) (MetadataResponseBroker3.calm version {}))
    |>.andThen (CalmStep.onlyIf (CalmStep.field tame_string calm_string))
    |>.andThen (CalmStep.onlyIf (CalmStep.field tame_int32 calm_int32))
    |>.andThen (CalmStep.structs (MetadataResponseTopic3.tame version {}) (MetadataResponseTopic3.calm version {}))
    |>.andThen (CalmStep.onlyIf (CalmStep.field tame_int32 calm_int32)) : CalmStep _).2 t0
theorem MetadataResponse.canon (version : Int16) (t : MetadataResponse) (h : t.Canon version) :
    t.seen version {} = t :=
  MetadataResponse.ext (canon_opt h.ThrottleTimeMs) (canon_structs (MetadataResponseBroker3.canon version) h.Brokers) (canon_opt h.ClusterId) (canon_opt h.ControllerId) (canon_structs (MetadataResponseTopic3.canon version) h.Topics) (canon_opt h.ClusterAuthorizedOperations)
theorem MetadataResponse.again (version : Int16) (t t0 : MetadataResponse) :
    MetadataResponse.wire version (t.seen version t0) = MetadataResponse.wire version t :=
  app_congr (app_congr (app_congr (app_congr (app_congr (again_opt Wire.int32 t.ThrottleTimeMs t0.ThrottleTimeMs) (again_structs (fun x => MetadataResponseBroker3.again version x {}) t.Brokers)) (again_opt Wire.string t.ClusterId t0.ClusterId)) (again_opt Wire.int32 t.ControllerId t0.ControllerId)) (again_structs (fun x => MetadataResponseTopic3.again version x {}) t.Topics)) (again_opt Wire.int32 t.ClusterAuthorizedOperations t0.ClusterAuthorizedOperations)
theorem MetadataResponse.lawful : Lawful MetadataResponse.type MetadataResponse.layout :=
  ⟨MetadataResponse.emits, MetadataResponse.sized, MetadataResponse.reads, MetadataResponse.tame, MetadataResponse.calm, MetadataResponse.canon, MetadataResponse.again⟩

end Kafka.Msg
