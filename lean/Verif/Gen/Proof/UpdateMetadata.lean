import Verif.Message.StepLemmas
import Verif.Gen.Spec.UpdateMetadata
/-!
Generated by tools/gen_messages.py: laws of the UpdateMetadata messages.
-/
namespace Kafka.Msg

theorem UpdateMetadataPartitionState6.emits (version : Int16) (t : UpdateMetadataPartitionState6) :
    Emits (UpdateMetadataPartitionState6.encode version t) (UpdateMetadataPartitionState6.wire version t) :=
  (Emits.onlyIf (emits_string t.TopicName))
    |>.andThen (emits_int32 t.PartitionIndex)
    |>.andThen (emits_int32 t.ControllerEpoch)
    |>.andThen (emits_int32 t.Leader)
    |>.andThen (emits_int32 t.LeaderEpoch)
    |>.andThen (emits_int32Array t.Isr)
    |>.andThen (emits_int32 t.ZkVersion)
    |>.andThen (emits_int32Array t.Replicas)
    |>.andThen (Emits.onlyIf (emits_int32Array t.OfflineReplicas))
theorem UpdateMetadataPartitionState6.sized (version : Int16) (t : UpdateMetadataPartitionState6) :
    Sized (UpdateMetadataPartitionState6.size version t) (UpdateMetadataPartitionState6.wire version t) :=
  Grows.sized ((Grows.onlyIf (Grows.add (sized_string t.TopicName)))
    |>.andThen (Grows.add (sized_int32 t.PartitionIndex))
    |>.andThen (Grows.add (sized_int32 t.ControllerEpoch))
    |>.andThen (Grows.add (sized_int32 t.Leader))
    |>.andThen (Grows.add (sized_int32 t.LeaderEpoch))
    |>.andThen (Grows.add (sized_int32Array t.Isr))
    |>.andThen (Grows.add (sized_int32 t.ZkVersion))
    |>.andThen (Grows.add (sized_int32Array t.Replicas))
    |>.andThen (Grows.onlyIf (Grows.add (sized_int32Array t.OfflineReplicas))))
theorem UpdateMetadataPartitionState6.reads (version : Int16) (t : UpdateMetadataPartitionState6) (h : t.Fits version) (t0 : UpdateMetadataPartitionState6) :
    Reads (UpdateMetadataPartitionState6.decode version t0) (UpdateMetadataPartitionState6.wire version t) (t.seen version t0) :=
  ((Step.optField (c := version ≥ 0 ∧ version ≤ 4) (set := fun (t : UpdateMetadataPartitionState6) x => { t with TopicName := x }) (·.TopicName) (fun _ => rfl) fun hc => reads_string (h.TopicName hc))
    |>.andThen (Step.field (set := fun (t : UpdateMetadataPartitionState6) x => { t with PartitionIndex := x }) (reads_int32 t.PartitionIndex))
    |>.andThen (Step.field (set := fun (t : UpdateMetadataPartitionState6) x => { t with ControllerEpoch := x }) (reads_int32 t.ControllerEpoch))
    |>.andThen (Step.field (set := fun (t : UpdateMetadataPartitionState6) x => { t with Leader := x }) (reads_int32 t.Leader))
    |>.andThen (Step.field (set := fun (t : UpdateMetadataPartitionState6) x => { t with LeaderEpoch := x }) (reads_int32 t.LeaderEpoch))
    |>.andThen (Step.field (set := fun (t : UpdateMetadataPartitionState6) x => { t with Isr := x }) (reads_int32Array h.Isr))
    |>.andThen (Step.field (set := fun (t : UpdateMetadataPartitionState6) x => { t with ZkVersion := x }) (reads_int32 t.ZkVersion))
    |>.andThen (Step.field (set := fun (t : UpdateMetadataPartitionState6) x => { t with Replicas := x }) (reads_int32Array h.Replicas))
    |>.andThen (Step.optField (c := version ≥ 4) (set := fun (t : UpdateMetadataPartitionState6) x => { t with OfflineReplicas := x }) (·.OfflineReplicas) (fun _ => rfl) fun hc => reads_int32Array (h.OfflineReplicas hc)) : Step _ _ _) t0
theorem UpdateMetadataPartitionState6.tame (version : Int16) (t0 : UpdateMetadataPartitionState6) : Tame (UpdateMetadataPartitionState6.decode version t0) :=
  ((TameStep.onlyIf (TameStep.field tame_string))
    |>.andThen (TameStep.field tame_int32)
    |>.andThen (TameStep.field tame_int32)
    |>.andThen (TameStep.field tame_int32)
    |>.andThen (TameStep.field tame_int32)
    |>.andThen (TameStep.field tame_int32Array)
    |>.andThen (TameStep.field tame_int32)
    |>.andThen (TameStep.field tame_int32Array)
    |>.andThen (TameStep.onlyIf (TameStep.field tame_int32Array)) : TameStep _) t0
theorem UpdateMetadataPartitionState6.calm (version : Int16) (t0 : UpdateMetadataPartitionState6) :
    Calm (UpdateMetadataPartitionState6.decode version t0) (fun _ => True) :=
  ((CalmStep.onlyIf (CalmStep.field tame_string calm_string))
    |>.andThen (CalmStep.field tame_int32 calm_int32)
    |>.andThen (CalmStep.field tame_int32 calm_int32)
    |>.andThen (CalmStep.field tame_int32 calm_int32)
    |>.andThen (CalmStep.field tame_int32 calm_int32)
    |>.andThen (CalmStep.field tame_int32Array calm_int32Array)
    |>.andThen (CalmStep.field tame_int32 calm_int32)
    |>.andThen (CalmStep.field tame_int32Array calm_int32Array)
    |>.andThen (CalmStep.onlyIf (CalmStep.field tame_int32Array calm_int32Array)) : CalmStep _).2 t0
theorem UpdateMetadataPartitionState6.canon (version : Int16) (t : UpdateMetadataPartitionState6) (h : t.Canon version) :
    t.seen version {} = t :=
  UpdateMetadataPartitionState6.ext (canon_opt h.TopicName) rfl rfl rfl rfl rfl rfl rfl (canon_opt h.OfflineReplicas)
theorem UpdateMetadataPartitionState6.again (version : Int16) (t t0 : UpdateMetadataPartitionState6) :
    UpdateMetadataPartitionState6.wire version (t.seen version t0) = UpdateMetadataPartitionState6.wire version t :=
  app_congr (app_congr (app_congr (app_congr (app_congr (app_congr (app_congr (app_congr (again_opt Wire.string t.TopicName t0.TopicName) (rfl)) (rfl)) (rfl)) (rfl)) (rfl)) (rfl)) (rfl)) (again_opt Wire.int32Array t.OfflineReplicas t0.OfflineReplicas)
theorem UpdateMetadataPartitionState6.lawful : Lawful UpdateMetadataPartitionState6.type UpdateMetadataPartitionState6.layout :=
  ⟨UpdateMetadataPartitionState6.emits, UpdateMetadataPartitionState6.sized, UpdateMetadataPartitionState6.reads, UpdateMetadataPartitionState6.tame, UpdateMetadataPartitionState6.calm, UpdateMetadataPartitionState6.canon, UpdateMetadataPartitionState6.again⟩

theorem UpdateMetadataTopicState6.emits (version : Int16) (t : UpdateMetadataTopicState6) :
    Emits (UpdateMetadataTopicState6.encode version t) (UpdateMetadataTopicState6.wire version t) :=
  (Emits.onlyIf (emits_string t.TopicName))
    |>.andThen (Emits.onlyIf (emits_structs (UpdateMetadataPartitionState6.emits version) t.PartitionStates))
theorem UpdateMetadataTopicState6.sized (version : Int16) (t : UpdateMetadataTopicState6) :
    Sized (UpdateMetadataTopicState6.size version t) (UpdateMetadataTopicState6.wire version t) :=
  Grows.sized ((Grows.onlyIf (Grows.add (sized_string t.TopicName)))
    |>.andThen (Grows.onlyIf (Grows.structs (UpdateMetadataPartitionState6.sized version) t.PartitionStates)))
theorem UpdateMetadataTopicState6.reads (version : Int16) (t : UpdateMetadataTopicState6) (h : t.Fits version) (t0 : UpdateMetadataTopicState6) :
    Reads (UpdateMetadataTopicState6.decode version t0) (UpdateMetadataTopicState6.wire version t) (t.seen version t0) :=
  ((Step.optField (c := version ≥ 5) (set := fun (t : UpdateMetadataTopicState6) x => { t with TopicName := x }) (·.TopicName) (fun _ => rfl) fun hc => reads_string (h.TopicName hc))
    |>.andThen (Step.optStructs (c := version ≥ 5) (get := fun (t : UpdateMetadataTopicState6) => t.PartitionStates) (set := fun (t : UpdateMetadataTopicState6) x => { t with PartitionStates := x }) (fun _ => rfl) (fun x hx => UpdateMetadataPartitionState6.reads version x hx {}) h.PartitionStates) : Step _ _ _) t0
theorem UpdateMetadataTopicState6.tame (version : Int16) (t0 : UpdateMetadataTopicState6) : Tame (UpdateMetadataTopicState6.decode version t0) :=
  ((TameStep.onlyIf (TameStep.field tame_string))
    |>.andThen (TameStep.onlyIf (TameStep.structs (UpdateMetadataPartitionState6.tame version {}))) : TameStep _) t0
theorem UpdateMetadataTopicState6.calm (version : Int16) (t0 : UpdateMetadataTopicState6) :
    Calm (UpdateMetadataTopicState6.decode version t0) (fun _ => True) :=
  ((CalmStep.onlyIf (CalmStep.field tame_string calm_string))
    |>.andThen (CalmStep.onlyIf (CalmStep.structs (UpdateMetadataPartitionState6.tame version {}) (UpdateMetadataPartitionState6.calm version {}))) : CalmStep _).2 t0
theorem UpdateMetadataTopicState6.canon (version : Int16) (t : UpdateMetadataTopicState6) (h : t.Canon version) :
    t.seen version {} = t :=
  UpdateMetadataTopicState6.ext (canon_opt h.TopicName) (canon_optStructs (UpdateMetadataPartitionState6.canon version) h.PartitionStates.1 h.PartitionStates.2)
theorem UpdateMetadataTopicState6.again (version : Int16) (t t0 : UpdateMetadataTopicState6) :
    UpdateMetadataTopicState6.wire version (t.seen version t0) = UpdateMetadataTopicState6.wire version t :=
  app_congr (again_opt Wire.string t.TopicName t0.TopicName) (again_optStructs (fun x => UpdateMetadataPartitionState6.again version x {}) t.PartitionStates t0.PartitionStates)
theorem UpdateMetadataTopicState6.lawful : Lawful UpdateMetadataTopicState6.type UpdateMetadataTopicState6.layout :=
  ⟨UpdateMetadataTopicState6.emits, UpdateMetadataTopicState6.sized, UpdateMetadataTopicState6.reads, UpdateMetadataTopicState6.tame, UpdateMetadataTopicState6.calm, UpdateMetadataTopicState6.canon, UpdateMetadataTopicState6.again⟩

theorem UpdateMetadataEndpoint6.emits (version : Int16) (t : UpdateMetadataEndpoint6) :
    Emits (UpdateMetadataEndpoint6.encode version t) (UpdateMetadataEndpoint6.wire version t) :=
  (Emits.onlyIf (emits_int32 t.Port))
    |>.andThen (Emits.onlyIf (emits_string t.Host))
    |>.andThen (Emits.onlyIf (emits_string t.Listener))
    |>.andThen (Emits.onlyIf (emits_int16 t.SecurityProtocol))
theorem UpdateMetadataEndpoint6.sized (version : Int16) (t : UpdateMetadataEndpoint6) :
    Sized (UpdateMetadataEndpoint6.size version t) (UpdateMetadataEndpoint6.wire version t) :=
  Grows.sized ((Grows.onlyIf (Grows.add (sized_int32 t.Port)))
    |>.andThen (Grows.onlyIf (Grows.add (sized_string t.Host)))
    |>.andThen (Grows.onlyIf (Grows.add (sized_string t.Listener)))
    |>.andThen (Grows.onlyIf (Grows.add (sized_int16 t.SecurityProtocol))))
theorem UpdateMetadataEndpoint6.reads (version : Int16) (t : UpdateMetadataEndpoint6) (h : t.Fits version) (t0 : UpdateMetadataEndpoint6) :
    Reads (UpdateMetadataEndpoint6.decode version t0) (UpdateMetadataEndpoint6.wire version t) (t.seen version t0) :=
  ((Step.optField (c := version ≥ 1) (set := fun (t : UpdateMetadataEndpoint6) x => { t with Port := x }) (·.Port) (fun _ => rfl) fun _ => reads_int32 t.Port)
    |>.andThen (Step.optField (c := version ≥ 1) (set := fun (t : UpdateMetadataEndpoint6) x => { t with Host := x }) (·.Host) (fun _ => rfl) fun hc => reads_string (h.Host hc))
    |>.andThen (Step.optField (c := version ≥ 3) (set := fun (t : UpdateMetadataEndpoint6) x => { t with Listener := x }) (·.Listener) (fun _ => rfl) fun hc => reads_string (h.Listener hc))
    |>.andThen (Step.optField (c := version ≥ 1) (set := fun (t : UpdateMetadataEndpoint6) x => { t with SecurityProtocol := x }) (·.SecurityProtocol) (fun _ => rfl) fun _ => reads_int16 t.SecurityProtocol) : Step _ _ _) t0
theorem UpdateMetadataEndpoint6.tame (version : Int16) (t0 : UpdateMetadataEndpoint6) : Tame (UpdateMetadataEndpoint6.decode version t0) :=
  ((TameStep.onlyIf (TameStep.field tame_int32))
    |>.andThen (TameStep.onlyIf (TameStep.field tame_string))
    |>.andThen (TameStep.onlyIf (TameStep.field tame_string))
    |>.andThen (TameStep.onlyIf (TameStep.field tame_int16)) : TameStep _) t0
theorem UpdateMetadataEndpoint6.calm (version : Int16) (t0 : UpdateMetadataEndpoint6) :
    Calm (UpdateMetadataEndpoint6.decode version t0) (fun _ => True) :=
  ((CalmStep.onlyIf (CalmStep.field tame_int32 calm_int32))
    |>.andThen (CalmStep.onlyIf (CalmStep.field tame_string calm_string))
    |>.andThen (CalmStep.onlyIf (CalmStep.field tame_string calm_string))
    |>.andThen (CalmStep.onlyIf (CalmStep.field tame_int16 calm_int16)) : CalmStep _).2 t0
theorem UpdateMetadataEndpoint6.canon (version : Int16) (t : UpdateMetadataEndpoint6) (h : t.Canon version) :
    t.seen version {} = t :=
  UpdateMetadataEndpoint6.ext (canon_opt h.Port) (canon_opt h.Host) (canon_opt h.Listener) (canon_opt h.SecurityProtocol)
theorem UpdateMetadataEndpoint6.again (version : Int16) (t t0 : UpdateMetadataEndpoint6) :
    UpdateMetadataEndpoint6.wire version (t.seen version t0) = UpdateMetadataEndpoint6.wire version t :=
  app_congr (app_congr (app_congr (again_opt Wire.int32 t.Port t0.Port) (again_opt Wire.string t.Host t0.Host)) (again_opt Wire.string t.Listener t0.Listener)) (again_opt Wire.int16 t.SecurityProtocol t0.SecurityProtocol)
theorem UpdateMetadataEndpoint6.lawful : Lawful UpdateMetadataEndpoint6.type UpdateMetadataEndpoint6.layout :=
  ⟨UpdateMetadataEndpoint6.emits, UpdateMetadataEndpoint6.sized, UpdateMetadataEndpoint6.reads, UpdateMetadataEndpoint6.tame, UpdateMetadataEndpoint6.calm, UpdateMetadataEndpoint6.canon, UpdateMetadataEndpoint6.again⟩

theorem UpdateMetadataBroker6.emits (version : Int16) (t : UpdateMetadataBroker6) :
    Emits (UpdateMetadataBroker6.encode version t) (UpdateMetadataBroker6.wire version t) :=
  (emits_int32 t.Id)
    |>.andThen (Emits.onlyIf (emits_string t.V0Host))
    |>.andThen (Emits.onlyIf (emits_int32 t.V0Port))
    |>.andThen (Emits.onlyIf (emits_structs (UpdateMetadataEndpoint6.emits version) t.Endpoints))
    |>.andThen (Emits.onlyIf (emits_string t.Rack))
theorem UpdateMetadataBroker6.sized (version : Int16) (t : UpdateMetadataBroker6) :
    Sized (UpdateMetadataBroker6.size version t) (UpdateMetadataBroker6.wire version t) :=
  Grows.sized ((Grows.add (sized_int32 t.Id))
    |>.andThen (Grows.onlyIf (Grows.add (sized_string t.V0Host)))
    |>.andThen (Grows.onlyIf (Grows.add (sized_int32 t.V0Port)))
    |>.andThen (Grows.onlyIf (Grows.structs (UpdateMetadataEndpoint6.sized version) t.Endpoints))
    |>.andThen (Grows.onlyIf (Grows.add (sized_string t.Rack))))
theorem UpdateMetadataBroker6.reads (version : Int16) (t : UpdateMetadataBroker6) (h : t.Fits version) (t0 : UpdateMetadataBroker6) :
    Reads (UpdateMetadataBroker6.decode version t0) (UpdateMetadataBroker6.wire version t) (t.seen version t0) :=
  ((Step.field (set := fun (t : UpdateMetadataBroker6) x => { t with Id := x }) (reads_int32 t.Id))
    |>.andThen (Step.optField (c := version ≥ 0 ∧ version ≤ 0) (set := fun (t : UpdateMetadataBroker6) x => { t with V0Host := x }) (·.V0Host) (fun _ => rfl) fun hc => reads_string (h.V0Host hc))
    |>.andThen (Step.optField (c := version ≥ 0 ∧ version ≤ 0) (set := fun (t : UpdateMetadataBroker6) x => { t with V0Port := x }) (·.V0Port) (fun _ => rfl) fun _ => reads_int32 t.V0Port)
    |>.andThen (Step.optStructs (c := version ≥ 1) (get := fun (t : UpdateMetadataBroker6) => t.Endpoints) (set := fun (t : UpdateMetadataBroker6) x => { t with Endpoints := x }) (fun _ => rfl) (fun x hx => UpdateMetadataEndpoint6.reads version x hx {}) h.Endpoints)
    |>.andThen (Step.optField (c := version ≥ 2) (set := fun (t : UpdateMetadataBroker6) x => { t with Rack := x }) (·.Rack) (fun _ => rfl) fun hc => reads_string (h.Rack hc)) : Step _ _ _) t0
theorem UpdateMetadataBroker6.tame (version : Int16) (t0 : UpdateMetadataBroker6) : Tame (UpdateMetadataBroker6.decode version t0) :=
  ((TameStep.field tame_int32)
    |>.andThen (TameStep.onlyIf (TameStep.field tame_string))
    |>.andThen (TameStep.onlyIf (TameStep.field tame_int32))
    |>.andThen (TameStep.onlyIf (TameStep.structs (UpdateMetadataEndpoint6.tame version {})))
    |>.andThen (TameStep.onlyIf (TameStep.field tame_string)) : TameStep _) t0
theorem UpdateMetadataBroker6.calm (version : Int16) (t0 : UpdateMetadataBroker6) :
    Calm (UpdateMetadataBroker6.decode version t0) (fun _ => True) :=
  ((CalmStep.field tame_int32 calm_int32)
    |>.andThen (CalmStep.onlyIf (CalmStep.field tame_string calm_string))
    |>.andThen (CalmStep.onlyIf (CalmStep.field tame_int32 calm_int32))
    |>.andThen (CalmStep.onlyIf (CalmStep.structs (UpdateMetadataEndpoint6.tame version {}) (UpdateMetadataEndpoint6.calm version {})))
    |>.andThen (CalmStep.onlyIf (CalmStep.field tame_string calm_string)) : CalmStep _).2 t0
theorem UpdateMetadataBroker6.canon (version : Int16) (t : UpdateMetadataBroker6) (h : t.Canon version) :
    t.seen version {} = t :=
  UpdateMetadataBroker6.ext rfl (canon_opt h.V0Host) (canon_opt h.V0Port) (canon_optStructs (UpdateMetadataEndpoint6.canon version) h.Endpoints.1 h.Endpoints.2) (canon_opt h.Rack)
theorem UpdateMetadataBroker6.again (version : Int16) (t t0 : UpdateMetadataBroker6) :
    UpdateMetadataBroker6.wire version (t.seen version t0) = UpdateMetadataBroker6.wire version t :=
  app_congr (app_congr (app_congr (app_congr (rfl) (again_opt Wire.string t.V0Host t0.V0Host)) (again_opt Wire.int32 t.V0Port t0.V0Port)) (again_optStructs (fun x => UpdateMetadataEndpoint6.again version x {}) t.Endpoints t0.Endpoints)) (again_opt Wire.string t.Rack t0.Rack)
theorem UpdateMetadataBroker6.lawful : Lawful UpdateMetadataBroker6.type UpdateMetadataBroker6.layout :=
  ⟨UpdateMetadataBroker6.emits, UpdateMetadataBroker6.sized, UpdateMetadataBroker6.reads, UpdateMetadataBroker6.tame, UpdateMetadataBroker6.calm, UpdateMetadataBroker6.canon, UpdateMetadataBroker6.again⟩

theorem UpdateMetadataRequest.emits (version : Int16) (t : UpdateMetadataRequest) :
    Emits (UpdateMetadataRequest.encode version t) (UpdateMetadataRequest.wire version t) :=
  (emits_int32 t.ControllerId)
    |>.andThen (emits_int32 t.ControllerEpoch)
    |>.andThen (Emits.onlyIf (emits_int64 t.BrokerEpoch))
    |>.andThen (Emits.onlyIf (emits_structs (UpdateMetadataPartitionState6.emits version) t.UngroupedPartitionStates))
    |>.andThen (Emits.onlyIf (emits_structs (UpdateMetadataTopicState6.emits version) t.TopicStates))
    |>.andThen (emits_structs (UpdateMetadataBroker6.emits version) t.LiveBrokers)
theorem UpdateMetadataRequest.sized (version : Int16) (t : UpdateMetadataRequest) :
    Sized (UpdateMetadataRequest.size version t) (UpdateMetadataRequest.wire version t) :=
  Grows.sized ((Grows.add (sized_int32 t.ControllerId))
    |>.andThen (Grows.add (sized_int32 t.ControllerEpoch))
    |>.andThen (Grows.onlyIf (Grows.add (sized_int64 t.BrokerEpoch)))
    |>.andThen (Grows.onlyIf (Grows.structs (UpdateMetadataPartitionState6.sized version) t.UngroupedPartitionStates))
    |>.andThen (Grows.onlyIf (Grows.structs (UpdateMetadataTopicState6.sized version) t.TopicStates))
    |>.andThen (Grows.structs (UpdateMetadataBroker6.sized version) t.LiveBrokers))
theorem UpdateMetadataRequest.reads (version : Int16) (t : UpdateMetadataRequest) (h : t.Fits version) (t0 : UpdateMetadataRequest) :
    Reads (UpdateMetadataRequest.decode version t0) (UpdateMetadataRequest.wire version t) (t.seen version t0) :=
  ((Step.field (set := fun (t : UpdateMetadataRequest) x => { t with ControllerId := x }) (reads_int32 t.ControllerId))
    |>.andThen (Step.field (set := fun (t : UpdateMetadataRequest) x => { t with ControllerEpoch := x }) (reads_int32 t.ControllerEpoch))
    |>.andThen (Step.optField (c := version ≥ 5) (set := fun (t : UpdateMetadataRequest) x => { t with BrokerEpoch := x }) (·.BrokerEpoch) (fun _ => rfl) fun _ => reads_int64 t.BrokerEpoch)
    |>.andThen (Step.optStructs (c := version ≥ 0 ∧ version ≤ 4) (get := fun (t : UpdateMetadataRequest) => t.UngroupedPartitionStates) (set := fun (t : UpdateMetadataRequest) x => { t with UngroupedPartitionStates := x }) (fun _ => rfl) (fun x hx => UpdateMetadataPartitionState6.reads version x hx {}) h.UngroupedPartitionStates)
    |>.andThen (Step.optStructs (c := version ≥ 5) (get := fun (t : UpdateMetadataRequest) => t.TopicStates) (set := fun (t : UpdateMetadataRequest) x => { t with TopicStates := x }) (fun _ => rfl) (fun x hx => UpdateMetadataTopicState6.reads version x hx {}) h.TopicStates)
    |>.andThen (Step.structs (get := fun (t : UpdateMetadataRequest) => t.LiveBrokers) (set := fun (t : UpdateMetadataRequest) x => { t with LiveBrokers := x }) (fun x hx => UpdateMetadataBroker6.reads version x hx {}) h.LiveBrokers) : Step _ _ _) t0
theorem UpdateMetadataRequest.tame (version : Int16) (t0 : UpdateMetadataRequest) : Tame (UpdateMetadataRequest.decode version t0) :=
  ((TameStep.field tame_int32)
    |>.andThen (TameStep.field tame_int32)
    |>.andThen (TameStep.onlyIf (TameStep.field tame_int64))
    |>.andThen (TameStep.onlyIf (TameStep.structs (UpdateMetadataPartitionState6.tame version {})))
    |>.andThen (TameStep.onlyIf (TameStep.structs (UpdateMetadataTopicState6.tame version {})))
    |>.andThen (TameStep.structs (UpdateMetadataBroker6.tame version {})) : TameStep _) t0
theorem UpdateMetadataRequest.calm (version : Int16) (t0 : UpdateMetadataRequest) :
    Calm (UpdateMetadataRequest.decode version t0) (fun _ => True) :=
  ((CalmStep.field tame_int32 calm_int32)
    |>.andThen (CalmStep.field tame_int32 calm_int32)
    |>.andThen (CalmStep.onlyIf (CalmStep.field tame_int64 calm_int64))
    |>.andThen (CalmStep.onlyIf (CalmStep.structs (UpdateMetadataPartitionState6.tame version {}) (UpdateMetadataPartitionState6.calm version {})))
    |>.andThen (CalmStep.onlyIf (CalmStep.structs (UpdateMetadataTopicState6.tame version {}) (UpdateMetadataTopicState6.calm version {})))
    |>.andThen (CalmStep.structs (UpdateMetadataBroker6.tame version {}) (UpdateMetadataBroker6.calm version {})) : CalmStep _).2 t0
theorem UpdateMetadataRequest.canon (version : Int16) (t : UpdateMetadataRequest) (h : t.Canon version) :
    t.seen version {} = t :=
  UpdateMetadataRequest.ext rfl rfl (canon_opt h.BrokerEpoch) (canon_optStructs (UpdateMetadataPartitionState6.canon version) h.UngroupedPartitionStates.1 h.UngroupedPartitionStates.2) (canon_optStructs (UpdateMetadataTopicState6.canon version) h.TopicStates.1 h.TopicStates.2) (canon_structs (UpdateMetadataBroker6.canon version) h.LiveBrokers)
theorem UpdateMetadataRequest.again (version : Int16) (t t0 : UpdateMetadataRequest) :
    UpdateMetadataRequest.wire version (t.seen version t0) = UpdateMetadataRequest.wire version t :=
  app_congr (app_congr (app_congr (app_congr (app_congr (rfl) (rfl)) (again_opt Wire.int64 t.BrokerEpoch t0.BrokerEpoch)) (again_optStructs (fun x => UpdateMetadataPartitionState6.again version x {}) t.UngroupedPartitionStates t0.UngroupedPartitionStates)) (again_optStructs (fun x => UpdateMetadataTopicState6.again version x {}) t.TopicStates t0.TopicStates)) (again_structs (fun x => UpdateMetadataBroker6.again version x {}) t.LiveBrokers)
theorem UpdateMetadataRequest.lawful : Lawful UpdateMetadataRequest.type UpdateMetadataRequest.layout :=
  ⟨UpdateMetadataRequest.emits, UpdateMetadataRequest.sized, UpdateMetadataRequest.reads, UpdateMetadataRequest.tame, UpdateMetadataRequest.calm, UpdateMetadataRequest.canon, UpdateMetadataRequest.again⟩

theorem UpdateMetadataResponse.emits (version : Int16) (t : UpdateMetadataResponse) :
    Emits (UpdateMetadataResponse.encode version t) (UpdateMetadataResponse.wire version t) :=
  emits_int16 t.ErrorCode
theorem UpdateMetadataResponse.sized (version : Int16) (t : UpdateMetadataResponse) :
    Sized (UpdateMetadataResponse.size version t) (UpdateMetadataResponse.wire version t) :=
  Grows.sized (Grows.add (sized_int16 t.ErrorCode))
theorem UpdateMetadataResponse.reads (version : Int16) (t : UpdateMetadataResponse) (_h : t.Fits version) (t0 : UpdateMetadataResponse) :
    Reads (UpdateMetadataResponse.decode version t0) (UpdateMetadataResponse.wire version t) (t.seen version t0) :=
  (Step.field (set := fun (t : UpdateMetadataResponse) x => { t with ErrorCode := x }) (reads_int16 t.ErrorCode) : Step _ _ _) t0
theorem UpdateMetadataResponse.tame (version : Int16) (t0 : UpdateMetadataResponse) : Tame (UpdateMetadataResponse.decode version t0) :=
  (TameStep.field tame_int16 : TameStep _) t0
theorem UpdateMetadataResponse.calm (version : Int16) (t0 : UpdateMetadataResponse) :
    Calm (UpdateMetadataResponse.decode version t0) (fun _ => True) :=
  (CalmStep.field tame_int16 calm_int16 : CalmStep _).2 t0
theorem UpdateMetadataResponse.canon (version : Int16) (t : UpdateMetadataResponse) (_h : t.Canon version) :
    t.seen version {} = t :=
  UpdateMetadataResponse.ext rfl
theorem UpdateMetadataResponse.again (version : Int16) (t t0 : UpdateMetadataResponse) :
    UpdateMetadataResponse.wire version (t.seen version t0) = UpdateMetadataResponse.wire version t :=
  rfl
theorem UpdateMetadataResponse.lawful : Lawful UpdateMetadataResponse.type UpdateMetadataResponse.layout :=
  ⟨UpdateMetadataResponse.emits, UpdateMetadataResponse.sized, UpdateMetadataResponse.reads, UpdateMetadataResponse.tame, UpdateMetadataResponse.calm, UpdateMetadataResponse.canon, UpdateMetadataResponse.again⟩

end Kafka.Msg
