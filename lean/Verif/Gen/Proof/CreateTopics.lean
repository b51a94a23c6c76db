import Verif.Message.StepLemmas
import Verif.Gen.Spec.CreateTopics
/-!
Generated by tools/gen_messages.py: laws of the CreateTopics messages.
-/
namespace Kafka.Msg

theorem CreatableReplicaAssignment19.emits (version : Int16) (t : CreatableReplicaAssignment19) :
    Emits (CreatableReplicaAssignment19.encode version t) (CreatableReplicaAssignment19.wire version t) :=
  (emits_int32 t.PartitionIndex)
    |>.andThen (emits_int32Array t.BrokerIds)
theorem CreatableReplicaAssignment19.sized (version : Int16) (t : CreatableReplicaAssignment19) :
    Sized (CreatableReplicaAssignment19.size version t) (CreatableReplicaAssignment19.wire version t) :=
  Grows.sized ((Grows.add (sized_int32 t.PartitionIndex))
    |>.andThen (Grows.add (sized_int32Array t.BrokerIds)))
theorem CreatableReplicaAssignment19.reads (version : Int16) (t : CreatableReplicaAssignment19) (h : t.Fits version) (t0 : CreatableReplicaAssignment19) :
    Reads (CreatableReplicaAssignment19.decode version t0) (CreatableReplicaAssignment19.wire version t) (t.seen version t0) :=
  ((Step.field (set := fun (t : CreatableReplicaAssignment19) x => { t with PartitionIndex := x }) (reads_int32 t.PartitionIndex))
    |>.andThen (Step.field (set := fun (t : CreatableReplicaAssignment19) x => { t with BrokerIds := x }) (reads_int32Array h.BrokerIds)) : Step _ _ _) t0
theorem CreatableReplicaAssignment19.tame (version : Int16) (t0 : CreatableReplicaAssignment19) : Tame (CreatableReplicaAssignment19.decode version t0) :=
  ((TameStep.field tame_int32)
    |>.andThen (TameStep.field tame_int32Array) : TameStep _) t0
theorem CreatableReplicaAssignment19.calm (version : Int16) (t0 : CreatableReplicaAssignment19) :
    Calm (CreatableReplicaAssignment19.decode version t0) (fun _ => True) :=
  ((CalmStep.field tame_int32 calm_int32)
    |>.andThen (CalmStep.field tame_int32Array calm_int32Array) : CalmStep _).2 t0
theorem CreatableReplicaAssignment19.canon (version : Int16) (t : CreatableReplicaAssignment19) (_h : t.Canon version) :
    t.seen version {} = t :=
  CreatableReplicaAssignment19.ext rfl rfl
theorem CreatableReplicaAssignment19.again (version : Int16) (t t0 : CreatableReplicaAssignment19) :
    CreatableReplicaAssignment19.wire version (t.seen version t0) = CreatableReplicaAssignment19.wire version t :=
  app_congr (rfl) (rfl)
theorem CreatableReplicaAssignment19.lawful : Lawful CreatableReplicaAssignment19.type CreatableReplicaAssignment19.layout :=
  ⟨CreatableReplicaAssignment19.emits, CreatableReplicaAssignment19.sized, CreatableReplicaAssignment19.reads, CreatableReplicaAssignment19.tame, CreatableReplicaAssignment19.calm, CreatableReplicaAssignment19.canon, CreatableReplicaAssignment19.again⟩

theorem CreateableTopicConfig19.emits (version : Int16) (t : CreateableTopicConfig19) :
    Emits (CreateableTopicConfig19.encode version t) (CreateableTopicConfig19.wire version t) :=
  (emits_string t.Name)
    |>.andThen (emits_string t.Value)
theorem CreateableTopicConfig19.sized (version : Int16) (t : CreateableTopicConfig19) :
    Sized (CreateableTopicConfig19.size version t) (CreateableTopicConfig19.wire version t) :=
  Grows.sized ((Grows.add (sized_string t.Name))
    |>.andThen (Grows.add (sized_string t.Value)))
theorem CreateableTopicConfig19.reads (version : Int16) (t : CreateableTopicConfig19) (h : t.Fits version) (t0 : CreateableTopicConfig19) :
    Reads (CreateableTopicConfig19.decode version t0) (CreateableTopicConfig19.wire version t) (t.seen version t0) :=
  ((Step.field (set := fun (t : CreateableTopicConfig19) x => { t with Name := x }) (reads_string h.Name))
    |>.andThen (Step.field (set := fun (t : CreateableTopicConfig19) x => { t with Value := x }) (reads_string h.Value)) : Step _ _ _) t0
theorem CreateableTopicConfig19.tame (version : Int16) (t0 : CreateableTopicConfig19) : Tame (CreateableTopicConfig19.decode version t0) :=
  ((TameStep.field tame_string)
    |>.andThen (TameStep.field tame_string) : TameStep _) t0
theorem CreateableTopicConfig19.calm (version : Int16) (t0 : CreateableTopicConfig19) :
    Calm (CreateableTopicConfig19.decode version t0) (fun _ => True) :=
  ((CalmStep.field tame_string calm_string)
    |>.andThen (CalmStep.field tame_string calm_string) : CalmStep _).2 t0
theorem CreateableTopicConfig19.canon (version : Int16) (t : CreateableTopicConfig19) (_h : t.Canon version) :
    t.seen version {} = t :=
  CreateableTopicConfig19.ext rfl rfl
theorem CreateableTopicConfig19.again (version : Int16) (t t0 : CreateableTopicConfig19) :
    CreateableTopicConfig19.wire version (t.seen version t0) = CreateableTopicConfig19.wire version t :=
  app_congr (rfl) (rfl)
theorem CreateableTopicConfig19.lawful : Lawful CreateableTopicConfig19.type CreateableTopicConfig19.layout :=
  ⟨CreateableTopicConfig19.emits, CreateableTopicConfig19.sized, CreateableTopicConfig19.reads, CreateableTopicConfig19.tame, CreateableTopicConfig19.calm, CreateableTopicConfig19.canon, CreateableTopicConfig19.again⟩

theorem CreatableTopic19.emits (version : Int16) (t : CreatableTopic19) :
    Emits (CreatableTopic19.encode version t) (CreatableTopic19.wire version t) :=
  (emits_string t.Name)
    |>.andThen (emits_int32 t.NumPartitions)
    |>.andThen (emits_int16 t.ReplicationFactor)
    |>.andThen (emits_structs (CreatableReplicaAssignment19.emits version) t.Assignments)
    |>.andThen (emits_structs (CreateableTopicConfig19.emits version) t.Configs)
theorem CreatableTopic19.sized (version : Int16) (t : CreatableTopic19) :
    Sized (CreatableTopic19.size version t) (CreatableTopic19.wire version t) :=
  Grows.sized ((Grows.add (sized_string t.Name))
    |>.andThen (Grows.add (sized_int32 t.NumPartitions))
    |>.andThen (Grows.add (sized_int16 t.ReplicationFactor))
    |>.andThen (Grows.structs (CreatableReplicaAssignment19.sized version) t.Assignments)
    |>.andThen (Grows.structs (CreateableTopicConfig19.sized version) t.Configs))
theorem CreatableTopic19.reads (version : Int16) (t : CreatableTopic19) (h : t.Fits version) (t0 : CreatableTopic19) :
    Reads (CreatableTopic19.decode version t0) (CreatableTopic19.wire version t) (t.seen version t0) :=
  ((Step.field (set := fun (t : CreatableTopic19) x => { t with Name := x }) (reads_string h.Name))
    |>.andThen (Step.field (set := fun (t : CreatableTopic19) x => { t with NumPartitions := x }) (reads_int32 t.NumPartitions))
    |>.andThen (Step.field (set := fun (t : CreatableTopic19) x => { t with ReplicationFactor := x }) (reads_int16 t.ReplicationFactor))
    |>.andThen (Step.structs (get := fun (t : CreatableTopic19) => t.Assignments) (set := fun (t : CreatableTopic19) x => { t with Assignments := x }) (fun x hx => CreatableReplicaAssignment19.reads version x hx {}) h.Assignments)
    |>.andThen (Step.structs (get := fun (t : CreatableTopic19) => t.Configs) (set := fun (t : CreatableTopic19) x => { t with Configs := x }) (fun x hx => CreateableTopicConfig19.reads version x hx {}) h.Configs) : Step _ _ _) t0
theorem CreatableTopic19.tame (version : Int16) (t0 : CreatableTopic19) : Tame (CreatableTopic19.decode version t0) :=
  ((TameStep.field tame_string)
    |>.andThen (TameStep.field tame_int32)
    |>.andThen (TameStep.field tame_int16)
    |>.andThen (TameStep.structs (CreatableReplicaAssignment19.tame version {}))
    |>.andThen (TameStep.structs (CreateableTopicConfig19.tame version {})) : TameStep _) t0
theorem CreatableTopic19.calm (version : Int16) (t0 : CreatableTopic19) :
    Calm (CreatableTopic19.decode version t0) (fun _ => True) :=
  ((CalmStep.field tame_string calm_string)
    |>.andThen (CalmStep.field tame_int32 calm_int32)
    |>.andThen (CalmStep.field tame_int16 calm_int16)
    |>.andThen (CalmStep.structs (CreatableReplicaAssignment19.tame version {}) (CreatableReplicaAssignment19.calm version {}))
    |>.andThen (CalmStep.structs (CreateableTopicConfig19.tame version {}) (CreateableTopicConfig19.calm version {})) : CalmStep _).2 t0
theorem CreatableTopic19.canon (version : Int16) (t : CreatableTopic19) (h : t.Canon version) :
    t.seen version {} = t :=
  CreatableTopic19.ext rfl rfl rfl (canon_structs (CreatableReplicaAssignment19.canon version) h.Assignments) (canon_structs (CreateableTopicConfig19.canon version) h.Configs)
theorem CreatableTopic19.again (version : Int16) (t t0 : CreatableTopic19) :
    CreatableTopic19.wire version (t.seen version t0) = CreatableTopic19.wire version t :=
  app_congr (app_congr (app_congr (app_congr (rfl) (rfl)) (rfl)) (again_structs (fun x => CreatableReplicaAssignment19.again version x {}) t.Assignments)) (again_structs (fun x => CreateableTopicConfig19.again version x {}) t.Configs)
theorem CreatableTopic19.lawful : Lawful CreatableTopic19.type CreatableTopic19.layout :=
  ⟨CreatableTopic19.emits, CreatableTopic19.sized, CreatableTopic19.reads, CreatableTopic19.tame, CreatableTopic19.calm, CreatableTopic19.canon, CreatableTopic19.again⟩

theorem CreateTopicsRequest.emits (version : Int16) (t : CreateTopicsRequest) :
    Emits (CreateTopicsRequest.encode version t) (CreateTopicsRequest.wire version t) :=
  (emits_structs (CreatableTopic19.emits version) t.Topics)
    |>.andThen (emits_int32 t.timeoutMs)
    |>.andThen (Emits.onlyIf (emits_bool t.validateOnly))
theorem CreateTopicsRequest.sized (version : Int16) (t : CreateTopicsRequest) :
    Sized (CreateTopicsRequest.size version t) (CreateTopicsRequest.wire version t) :=
  Grows.sized ((Grows.structs (CreatableTopic19.sized version) t.Topics)
    |>.andThen (Grows.add (sized_int32 t.timeoutMs))
    |>.andThen (Grows.onlyIf (Grows.add (sized_bool t.validateOnly))))
theorem CreateTopicsRequest.reads (version : Int16) (t : CreateTopicsRequest) (h : t.Fits version) (t0 : CreateTopicsRequest) :
    Reads (CreateTopicsRequest.decode version t0) (CreateTopicsRequest.wire version t) (t.seen version t0) :=
  ((Step.structs (get := fun (t : CreateTopicsRequest) => t.Topics) (set := fun (t : CreateTopicsRequest) x => { t with Topics := x }) (fun x hx => CreatableTopic19.reads version x hx {}) h.Topics)
    |>.andThen (Step.field (set := fun (t : CreateTopicsRequest) x => { t with timeoutMs := x }) (reads_int32 t.timeoutMs))
    |>.andThen (Step.optField (c := version ≥ 1) (set := fun (t : CreateTopicsRequest) x => { t with validateOnly := x }) (·.validateOnly) (fun _ => rfl) fun _ => reads_bool t.validateOnly) : Step _ _ _) t0
theorem CreateTopicsRequest.tame (version : Int16) (t0 : CreateTopicsRequest) : Tame (CreateTopicsRequest.decode version t0) :=
  ((TameStep.structs (CreatableTopic19.tame version {}))
    |>.andThen (TameStep.field tame_int32)
    |>.andThen (TameStep.onlyIf (TameStep.field tame_bool)) : TameStep _) t0
theorem CreateTopicsRequest.calm (version : Int16) (t0 : CreateTopicsRequest) :
    Calm (CreateTopicsRequest.decode version t0) (fun _ => True) :=
  ((CalmStep.structs (CreatableTopic19.tame version {}) (CreatableTopic19.calm version {}))
    |>.andThen (CalmStep.field tame_int32 calm_int32)
    |>.andThen (CalmStep.onlyIf (CalmStep.field tame_bool calm_bool)) : CalmStep _).2 t0
theorem CreateTopicsRequest.canon (version : Int16) (t : CreateTopicsRequest) (h : t.Canon version) :
    t.seen version {} = t :=
  CreateTopicsRequest.ext (canon_structs (CreatableTopic19.canon version) h.Topics) rfl (canon_opt h.validateOnly)
theorem CreateTopicsRequest.again (version : Int16) (t t0 : CreateTopicsRequest) :
    CreateTopicsRequest.wire version (t.seen version t0) = CreateTopicsRequest.wire version t :=
  app_congr (app_congr (again_structs (fun x => CreatableTopic19.again version x {}) t.Topics) (rfl)) (again_opt Wire.bool t.validateOnly t0.validateOnly)
theorem CreateTopicsRequest.lawful : Lawful CreateTopicsRequest.type CreateTopicsRequest.layout :=
  ⟨CreateTopicsRequest.emits, CreateTopicsRequest.sized, CreateTopicsRequest.reads, CreateTopicsRequest.tame, CreateTopicsRequest.calm, CreateTopicsRequest.canon, CreateTopicsRequest.again⟩

theorem CreatableTopicConfigs19.emits (version : Int16) (t : CreatableTopicConfigs19) :
    Emits (CreatableTopicConfigs19.encode version t) (CreatableTopicConfigs19.wire version t) :=
  (Emits.onlyIf (emits_string t.Name))
    |>.andThen (Emits.onlyIf (emits_string t.Value))
    |>.andThen (Emits.onlyIf (emits_bool t.ReadOnly))
    |>.andThen (Emits.onlyIf (emits_int8 t.ConfigSource))
    |>.andThen (Emits.onlyIf (emits_bool t.IsSensitive))
theorem CreatableTopicConfigs19.sized (version : Int16) (t : CreatableTopicConfigs19) :
    Sized (CreatableTopicConfigs19.size version t) (CreatableTopicConfigs19.wire version t) :=
  Grows.sized ((Grows.onlyIf (Grows.add (sized_string t.Name)))
    |>.andThen (Grows.onlyIf (Grows.add (sized_string t.Value)))
    |>.andThen (Grows.onlyIf (Grows.add (sized_bool t.ReadOnly)))
    |>.andThen (Grows.onlyIf (Grows.add (sized_int8 t.ConfigSource)))
    |>.andThen (Grows.onlyIf (Grows.add (sized_bool t.IsSensitive))))
theorem CreatableTopicConfigs19.reads (version : Int16) (t : CreatableTopicConfigs19) (h : t.Fits version) (t0 : CreatableTopicConfigs19) :
    Reads (CreatableTopicConfigs19.decode version t0) (CreatableTopicConfigs19.wire version t) (t.seen version t0) :=
  ((Step.optField (c := version ≥ 5) (set := fun (t : CreatableTopicConfigs19) x => { t with Name := x }) (·.Name) (fun _ => rfl) fun hc => reads_string (h.Name hc))
    |>.andThen (Step.optField (c := version ≥ 5) (set := fun (t : CreatableTopicConfigs19) x => { t with Value := x }) (·.Value) (fun _ => rfl) fun hc => reads_string (h.Value hc))
    |>.andThen (Step.optField (c := version ≥ 5) (set := fun (t : CreatableTopicConfigs19) x => { t with ReadOnly := x }) (·.ReadOnly) (fun _ => rfl) fun _ => reads_bool t.ReadOnly)
    |>.andThen (Step.optField (c := version ≥ 5) (set := fun (t : CreatableTopicConfigs19) x => { t with ConfigSource := x }) (·.ConfigSource) (fun _ => rfl) fun _ => reads_int8 t.ConfigSource)
    |>.andThen (Step.optField (c := version ≥ 5) (set := fun (t : CreatableTopicConfigs19) x => { t with IsSensitive := x }) (·.IsSensitive) (fun _ => rfl) fun _ => reads_bool t.IsSensitive) : Step _ _ _) t0
theorem CreatableTopicConfigs19.tame (version : Int16) (t0 : CreatableTopicConfigs19) : Tame (CreatableTopicConfigs19.decode version t0) :=
  ((TameStep.onlyIf (TameStep.field tame_string))
    |>.andThen (TameStep.onlyIf (TameStep.field tame_string))
    |>.andThen (TameStep.onlyIf (TameStep.field tame_bool))
    |>.andThen (TameStep.onlyIf (TameStep.field tame_int8))
    |>.andThen (TameStep.onlyIf (TameStep.field tame_bool)) : TameStep _) t0
theorem CreatableTopicConfigs19.calm (version : Int16) (t0 : CreatableTopicConfigs19) :
    Calm (CreatableTopicConfigs19.decode version t0) (fun _ => True) :=
  ((CalmStep.onlyIf (CalmStep.field tame_string calm_string))
    |>.andThen (CalmStep.onlyIf (CalmStep.field tame_string calm_string))
    |>.andThen (CalmStep.onlyIf (CalmStep.field tame_bool calm_bool))
    |>.andThen (CalmStep.onlyIf (CalmStep.field tame_int8 calm_int8))
    |>.andThen (CalmStep.onlyIf (CalmStep.field tame_bool calm_bool)) : CalmStep _).2 t0
theorem CreatableTopicConfigs19.canon (version : Int16) (t : CreatableTopicConfigs19) (h : t.Canon version) :
    t.seen version {} = t :=
  CreatableTopicConfigs19.ext (canon_opt h.Name) (canon_opt h.Value) (canon_opt h.ReadOnly) (canon_opt h.ConfigSource) (canon_opt h.IsSensitive)
theorem CreatableTopicConfigs19.again (version : Int16) (t t0 : CreatableTopicConfigs19) :
    CreatableTopicConfigs19.wire version (t.seen version t0) = CreatableTopicConfigs19.wire version t :=
  app_congr (app_congr (app_congr (app_congr (again_opt Wire.string t.Name t0.Name) (again_opt Wire.string t.Value t0.Value)) (again_opt Wire.bool t.ReadOnly t0.ReadOnly)) (again_opt Wire.int8 t.ConfigSource t0.ConfigSource)) (again_opt Wire.bool t.IsSensitive t0.IsSensitive)
theorem CreatableTopicConfigs19.lawful : Lawful CreatableTopicConfigs19.type CreatableTopicConfigs19.layout :=
  ⟨CreatableTopicConfigs19.emits, CreatableTopicConfigs19.sized, CreatableTopicConfigs19.reads, CreatableTopicConfigs19.tame, CreatableTopicConfigs19.calm, CreatableTopicConfigs19.canon, CreatableTopicConfigs19.again⟩

theorem CreatableTopicResult19.emits (version : Int16) (t : CreatableTopicResult19) :
    Emits (CreatableTopicResult19.encode version t) (CreatableTopicResult19.wire version t) :=
  (emits_string t.Name)
    |>.andThen (emits_int16 t.ErrorCode)
    |>.andThen (Emits.onlyIf (emits_string t.ErrorMessage))
    |>.andThen (Emits.onlyIf (emits_int16 t.TopicConfigErrorCode))
    |>.andThen (Emits.onlyIf (emits_int32 t.NumPartitions))
    |>.andThen (Emits.onlyIf (emits_int16 t.ReplicationFactor))
    |>.andThen (Emits.onlyIf (emits_structs (CreatableTopicConfigs19.emits version) t.Configs))
theorem CreatableTopicResult19.sized (version : Int16) (t : CreatableTopicResult19) :
    Sized (CreatableTopicResult19.size version t) (CreatableTopicResult19.wire version t) :=
  Grows.sized ((Grows.add (sized_string t.Name))
    |>.andThen (Grows.add (sized_int16 t.ErrorCode))
    |>.andThen (Grows.onlyIf (Grows.add (sized_string t.ErrorMessage)))
    |>.andThen (Grows.onlyIf (Grows.add (sized_int16 t.TopicConfigErrorCode)))
    |>.andThen (Grows.onlyIf (Grows.add (sized_int32 t.NumPartitions)))
    |>.andThen (Grows.onlyIf (Grows.add (sized_int16 t.ReplicationFactor)))
    |>.andThen (Grows.onlyIf (Grows.structs (CreatableTopicConfigs19.sized version) t.Configs)))
theorem CreatableTopicResult19.reads (version : Int16) (t : CreatableTopicResult19) (h : t.Fits version) (t0 : CreatableTopicResult19) :
    Reads (CreatableTopicResult19.decode version t0) (CreatableTopicResult19.wire version t) (t.seen version t0) :=
  ((Step.field (set := fun (t : CreatableTopicResult19) x => { t with Name := x }) (reads_string h.Name))
    |>.andThen (Step.field (set := fun (t : CreatableTopicResult19) x => { t with ErrorCode := x }) (reads_int16 t.ErrorCode))
    |>.andThen (Step.optField (c := version ≥ 1) (set := fun (t : CreatableTopicResult19) x => { t with ErrorMessage := x }) (·.ErrorMessage) (fun _ => rfl) fun hc => reads_string (h.ErrorMessage hc))
    |>.andThen (Step.optField (c := version ≥ 5) (set := fun (t : CreatableTopicResult19) x => { t with TopicConfigErrorCode := x }) (·.TopicConfigErrorCode) (fun _ => rfl) fun _ => reads_int16 t.TopicConfigErrorCode)
    |>.andThen (Step.optField (c := version ≥ 5) (set := fun (t : CreatableTopicResult19) x => { t with NumPartitions := x }) (·.NumPartitions) (fun _ => rfl) fun _ => reads_int32 t.NumPartitions)
    |>.andThen (Step.optField (c := version ≥ 5) (set := fun (t : CreatableTopicResult19) x => { t with ReplicationFactor := x }) (·.ReplicationFactor) (fun _ => rfl) fun _ => reads_int16 t.ReplicationFactor)
    |>.andThen (Step.optStructs (c := version ≥ 5) (get := fun (t : CreatableTopicResult19) => t.Configs) (set := fun (t : CreatableTopicResult19) x => { t with Configs := x }) (fun _ => rfl) (fun x hx => CreatableTopicConfigs19.reads version x hx {}) h.Configs) : Step _ _ _) t0
theorem CreatableTopicResult19.tame (version : Int16) (t0 : CreatableTopicResult19) : Tame (CreatableTopicResult19.decode version t0) :=
  ((TameStep.field tame_string)
    |>.andThen (TameStep.field tame_int16)
    |>.andThen (TameStep.onlyIf (TameStep.field tame_string))
    |>.andThen (TameStep.onlyIf (TameStep.field tame_int16))
    |>.andThen (TameStep.onlyIf (TameStep.field tame_int32))
    |>.andThen (TameStep.onlyIf (TameStep.field tame_int16))
    |>.andThen (TameStep.onlyIf (TameStep.structs (CreatableTopicConfigs19.tame version {}))) : TameStep _) t0
theorem CreatableTopicResult19.calm (version : Int16) (t0 : CreatableTopicResult19) :
    Calm (CreatableTopicResult19.decode version t0) (fun _ => True) :=
  ((CalmStep.field tame_string calm_string)
    |>.andThen (CalmStep.field tame_int16 calm_int16)
    |>.andThen (CalmStep.onlyIf (CalmStep.field tame_string calm_string))
    |>.andThen (CalmStep.onlyIf (CalmStep.field tame_int16 calm_int16))
    |>.andThen (CalmStep.onlyIf (CalmStep.field tame_int32 calm_int32))
    |>.andThen (CalmStep.onlyIf (CalmStep.field tame_int16 calm_int16))
    |>.andThen (CalmStep.onlyIf (CalmStep.structs (CreatableTopicConfigs19.tame version {}) (CreatableTopicConfigs19.calm version {}))) : CalmStep _).2 t0
theorem CreatableTopicResult19.canon (version : Int16) (t : CreatableTopicResult19) (h : t.Canon version) :
    t.seen version {} = t :=
  CreatableTopicResult19.ext rfl rfl (canon_opt h.ErrorMessage) (canon_opt h.TopicConfigErrorCode) (canon_opt h.NumPartitions) (canon_opt h.ReplicationFactor) (canon_optStructs (CreatableTopicConfigs19.canon version) h.Configs.1 h.Configs.2)
theorem CreatableTopicResult19.again (version : Int16) (t t0 : CreatableTopicResult19) :
    CreatableTopicResult19.wire version (t.seen version t0) = CreatableTopicResult19.wire version t :=
  app_congr (app_congr (app_congr (app_congr (app_congr (app_congr (rfl) (rfl)) (again_opt Wire.string t.ErrorMessage t0.ErrorMessage)) (again_opt Wire.int16 t.TopicConfigErrorCode t0.TopicConfigErrorCode)) (again_opt Wire.int32 t.NumPartitions t0.NumPartitions)) (again_opt Wire.int16 t.ReplicationFactor t0.ReplicationFactor)) (again_optStructs (fun x => CreatableTopicConfigs19.again version x {}) t.Configs t0.Configs)
theorem CreatableTopicResult19.lawful : Lawful CreatableTopicResult19.type CreatableTopicResult19.layout :=
  ⟨CreatableTopicResult19.emits, CreatableTopicResult19.sized, CreatableTopicResult19.reads, CreatableTopicResult19.tame, CreatableTopicResult19.calm, CreatableTopicResult19.canon, CreatableTopicResult19.again⟩

theorem CreateTopicsResponse.emits (version : Int16) (t : CreateTopicsResponse) :
    Emits (CreateTopicsResponse.encode version t) (CreateTopicsResponse.wire version t) :=
  (Emits.onlyIf (emits_int32 t.ThrottleTimeMs))
    |>.andThen (emits_structs (CreatableTopicResult19.emits version) t.Topics)
theorem CreateTopicsResponse.sized (version : Int16) (t : CreateTopicsResponse) :
    Sized (CreateTopicsResponse.size version t) (CreateTopicsResponse.wire version t) :=
  Grows.sized ((Grows.onlyIf (Grows.add (sized_int32 t.ThrottleTimeMs)))
    |>.andThen (Grows.structs (CreatableTopicResult19.sized version) t.Topics))
theorem CreateTopicsResponse.reads (version : Int16) (t : CreateTopicsResponse) (h : t.Fits version) (t0 : CreateTopicsResponse) :
    Reads (CreateTopicsResponse.decode version t0) (CreateTopicsResponse.wire version t) (t.seen version t0) :=
  ((Step.optField (c := version ≥ 2) (set := fun (t : CreateTopicsResponse) x => { t with ThrottleTimeMs := x }) (·.ThrottleTimeMs) (fun _ => rfl) fun _ => reads_int32 t.ThrottleTimeMs)
    |>.andThen (Step.structs (get := fun (t : CreateTopicsResponse) => t.Topics) (set := fun (t : CreateTopicsResponse) x => { t with Topics := x }) (fun x hx => CreatableTopicResult19.reads version x hx {}) h.Topics) : Step _ _ _) t0
theorem CreateTopicsResponse.tame (version : Int16) (t0 : CreateTopicsResponse) : Tame (CreateTopicsResponse.decode version t0) :=
  ((TameStep.onlyIf (TameStep.field tame_int32))
    |>.andThen (TameStep.structs (CreatableTopicResult19.tame version {})) : TameStep _) t0
theorem CreateTopicsResponse.calm (version : Int16) (t0 : CreateTopicsResponse) :
    Calm (CreateTopicsResponse.decode version t0) (fun _ => True) :=
  ((CalmStep.onlyIf (CalmStep.field tame_int32 calm_int32))
    |>.andThen (CalmStep.structs (CreatableTopicResult19.tame version {}) (CreatableTopicResult19.calm version {})) : CalmStep _).2 t0
theorem CreateTopicsResponse.canon (version : Int16) (t : CreateTopicsResponse) (h : t.Canon version) :
    t.seen version {} = t :=
  CreateTopicsResponse.ext (canon_opt h.ThrottleTimeMs) (canon_structs (CreatableTopicResult19.canon version) h.Topics)
theorem CreateTopicsResponse.again (version : Int16) (t t0 : CreateTopicsResponse) :
    CreateTopicsResponse.wire version (t.seen version t0) = CreateTopicsResponse.wire version t :=
  app_congr (again_opt Wire.int32 t.ThrottleTimeMs t0.ThrottleTimeMs) (again_structs (fun x => CreatableTopicResult19.again version x {}) t.Topics)
theorem CreateTopicsResponse.lawful : Lawful CreateTopicsResponse.type CreateTopicsResponse.layout :=
  ⟨CreateTopicsResponse.emits, CreateTopicsResponse.sized, CreateTopicsResponse.reads, CreateTopicsResponse.tame, CreateTopicsResponse.calm, CreateTopicsResponse.canon, CreateTopicsResponse.again⟩

end Kafka.Msg
