import Verif.Message.StepLemmas
import Verif.Gen.Spec.LeaderAndIsr
/-!
Generated by tools/gen_messages.py: laws of the LeaderAndIsr messages.
-/
namespace Kafka.Msg

theorem LeaderAndIsrPartitionState4.emits (version : Int16) (t : LeaderAndIsrPartitionState4) :
    Emits (LeaderAndIsrPartitionState4.encode version t) (LeaderAndIsrPartitionState4.wire version t) :=
  (Emits.onlyIf (emits_string t.TopicName))
    |>.andThen (emits_int32 t.PartitionIndex)
    |>.andThen (emits_int32 t.ControllerEpoch)
    |>.andThen (emits_int32 t.Leader)
    |>.andThen (emits_int32 t.LeaderEpoch)
    |>.andThen (emits_int32Array t.Isr)
    |>.andThen (emits_int32 t.ZkVersion)
    |>.andThen (emits_int32Array t.Replicas)
    |>.andThen (Emits.onlyIf (emits_int32Array t.AddingReplicas))
    |>.andThen (Emits.onlyIf (emits_int32Array t.RemovingReplicas))
    |>.andThen (Emits.onlyIf (emits_bool t.IsNew))
theorem LeaderAndIsrPartitionState4.sized (version : Int16) (t : LeaderAndIsrPartitionState4) :
    Sized (LeaderAndIsrPartitionState4.size version t) (LeaderAndIsrPartitionState4.wire version t) :=
  Grows.sized ((Grows.onlyIf (Grows.add (sized_string t.TopicName)))
    |>.andThen (Grows.add (sized_int32 t.PartitionIndex))
    |>.andThen (Grows.add (sized_int32 t.ControllerEpoch))
    |>.andThen (Grows.add (sized_int32 t.Leader))
    |>.andThen (Grows.add (sized_int32 t.LeaderEpoch))
    |>.andThen (Grows.add (sized_int32Array t.Isr))
    |>.andThen (Grows.add (sized_int32 t.ZkVersion))
    |>.andThen (Grows.add (sized_int32Array t.Replicas))
    |>.andThen (Grows.onlyIf (Grows.add (sized_int32Array t.AddingReplicas)))
    |>.andThen (Grows.onlyIf (Grows.add (sized_int32Array t.RemovingReplicas)))
    |>.andThen (Grows.onlyIf (Grows.add (sized_bool t.IsNew))))
theorem LeaderAndIsrPartitionState4.reads (version : Int16) (t : LeaderAndIsrPartitionState4) (h : t.Fits version) (t0 : LeaderAndIsrPartitionState4) :
    Reads (LeaderAndIsrPartitionState4.decode version t0) (LeaderAndIsrPartitionState4.wire version t) (t.seen version t0) :=
  ((Step.optField (c := version ≥ 0 ∧ version ≤ 1) (set := fun (t : LeaderAndIsrPartitionState4) x => { t with TopicName := x }) (·.TopicName) (fun _ => rfl) fun hc => reads_string (h.TopicName hc))
    |>.andThen (Step.field (set := fun (t : LeaderAndIsrPartitionState4) x => { t with PartitionIndex := x }) (reads_int32 t.PartitionIndex))
    |>.andThen (Step.field (set := fun (t : LeaderAndIsrPartitionState4) x => { t with ControllerEpoch := x }) (reads_int32 t.ControllerEpoch))
    |>.andThen (Step.field (set := fun (t : LeaderAndIsrPartitionState4) x => { t with Leader := x }) (reads_int32 t.Leader))
    |>.andThen (Step.field (set := fun (t : LeaderAndIsrPartitionState4) x => { t with LeaderEpoch := x }) (reads_int32 t.LeaderEpoch))
    |>.andThen (Step.field (set := fun (t : LeaderAndIsrPartitionState4) x => { t with Isr := x }) (reads_int32Array h.Isr))
    |>.andThen (Step.field (set := fun (t : LeaderAndIsrPartitionState4) x => { t with ZkVersion := x }) (reads_int32 t.ZkVersion))
    |>.andThen (Step.field (set := fun (t : LeaderAndIsrPartitionState4) x => { t with Replicas := x }) (reads_int32Array h.Replicas))
    |>.andThen (Step.optField (c := version ≥ 3) (set := fun (t : LeaderAndIsrPartitionState4) x => { t with AddingReplicas := x }) (·.AddingReplicas) (fun _ => rfl) fun hc => reads_int32Array (h.AddingReplicas hc))
    |>.andThen (Step.optField (c := version ≥ 3) (set := fun (t : LeaderAndIsrPartitionState4) x => { t with RemovingReplicas := x }) (·.RemovingReplicas) (fun _ => rfl) fun hc => reads_int32Array (h.RemovingReplicas hc))
    |>.andThen (Step.optField (c := version ≥ 1) (set := fun (t : LeaderAndIsrPartitionState4) x => { t with IsNew := x }) (·.IsNew) (fun _ => rfl) fun _ => reads_bool t.IsNew) : Step _ _ _) t0
theorem LeaderAndIsrPartitionState4.tame (version : Int16) (t0 : LeaderAndIsrPartitionState4) : Tame (LeaderAndIsrPartitionState4.decode version t0) :=
  ((TameStep.onlyIf (TameStep.field tame_string))
    |>.andThen (TameStep.field tame_int32)
    |>.andThen (TameStep.field tame_int32)
    |>.andThen (TameStep.field tame_int32)
    |>.andThen (TameStep.field tame_int32)
    |>.andThen (TameStep.field tame_int32Array)
    |>.andThen (TameStep.field tame_int32)
    |>.andThen (TameStep.field tame_int32Array)
    |>.andThen (TameStep.onlyIf (TameStep.field tame_int32Array))
    |>.andThen (TameStep.onlyIf (TameStep.field tame_int32Array))
    |>.andThen (TameStep.onlyIf (TameStep.field tame_bool)) : TameStep _) t0
theorem LeaderAndIsrPartitionState4.calm (version : Int16) (t0 : LeaderAndIsrPartitionState4) :
    Calm (LeaderAndIsrPartitionState4.decode version t0) (fun _ => True) :=
  ((CalmStep.onlyIf (CalmStep.field tame_string calm_string))
    |>.andThen (CalmStep.field tame_int32 calm_int32)
    |>.andThen (CalmStep.field tame_int32 calm_int32)
    |>.andThen (CalmStep.field tame_int32 calm_int32)
    |>.andThen (CalmStep.field tame_int32 calm_int32)
    |>.andThen (CalmStep.field tame_int32Array calm_int32Array)
    |>.andThen (CalmStep.field tame_int32 calm_int32)
    |>.andThen (CalmStep.field tame_int32Array calm_int32Array)
    |>.andThen (CalmStep.onlyIf (CalmStep.field tame_int32Array calm_int32Array))
    |>.andThen (CalmStep.onlyIf (CalmStep.field tame_int32Array calm_int32Array))
    |>.andThen (CalmStep.onlyIf (CalmStep.field tame_bool calm_bool)) : CalmStep _).2 t0
theorem LeaderAndIsrPartitionState4.canon (version : Int16) (t : LeaderAndIsrPartitionState4) (h : t.Canon version) :
    t.seen version {} = t :=
  LeaderAndIsrPartitionState4.ext (canon_opt h.TopicName) rfl rfl rfl rfl rfl rfl rfl (canon_opt h.AddingReplicas) (canon_opt h.RemovingReplicas) (canon_opt h.IsNew)
theorem LeaderAndIsrPartitionState4.again (version : Int16) (t t0 : LeaderAndIsrPartitionState4) :
    LeaderAndIsrPartitionState4.wire version (t.seen version t0) = LeaderAndIsrPartitionState4.wire version t :=
  app_congr (app_congr (app_congr (app_congr (app_congr (app_congr (app_congr (app_congr (app_congr (app_congr (again_opt Wire.string t.TopicName t0.TopicName) (rfl)) (rfl)) (rfl)) (rfl)) (rfl)) (rfl)) (rfl)) (again_opt Wire.int32Array t.AddingReplicas t0.AddingReplicas)) (again_opt Wire.int32Array t.RemovingReplicas t0.RemovingReplicas)) (again_opt Wire.bool t.IsNew t0.IsNew)
theorem LeaderAndIsrPartitionState4.lawful : Lawful LeaderAndIsrPartitionState4.type LeaderAndIsrPartitionState4.layout :=
  ⟨LeaderAndIsrPartitionState4.emits, LeaderAndIsrPartitionState4.sized, LeaderAndIsrPartitionState4.reads, LeaderAndIsrPartitionState4.tame, LeaderAndIsrPartitionState4.calm, LeaderAndIsrPartitionState4.canon, LeaderAndIsrPartitionState4.again⟩

theorem LeaderAndIsrTopicState4.emits (version : Int16) (t : LeaderAndIsrTopicState4) :
    Emits (LeaderAndIsrTopicState4.encode version t) (LeaderAndIsrTopicState4.wire version t) :=
  (Emits.onlyIf (emits_string t.TopicName))
    |>.andThen (Emits.onlyIf (emits_structs (LeaderAndIsrPartitionState4.emits version) t.PartitionStates))
theorem LeaderAndIsrTopicState4.sized (version : Int16) (t : LeaderAndIsrTopicState4) :
    Sized (LeaderAndIsrTopicState4.size version t) (LeaderAndIsrTopicState4.wire version t) :=
  Grows.sized ((Grows.onlyIf (Grows.add (sized_string t.TopicName)))
    |>.andThen (Grows.onlyIf (Grows.structs (LeaderAndIsrPartitionState4.sized version) t.PartitionStates)))
theorem LeaderAndIsrTopicState4.reads (version : Int16) (t : LeaderAndIsrTopicState4) (h : t.Fits version) (t0 : LeaderAndIsrTopicState4) :
    Reads (LeaderAndIsrTopicState4.decode version t0) (LeaderAndIsrTopicState4.wire version t) (t.seen version t0) :=
  ((Step.optField (c := version ≥ 2) (set := fun (t : LeaderAndIsrTopicState4) x => { t with TopicName := x }) (·.TopicName) (fun _ => rfl) fun hc => reads_string (h.TopicName hc))
    |>.andThen (Step.optStructs (c := version ≥ 2) (get := fun (t : LeaderAndIsrTopicState4) => t.PartitionStates) (set := fun (t : LeaderAndIsrTopicState4) x => { t with PartitionStates := x }) (fun _ => rfl) (fun x hx => LeaderAndIsrPartitionState4.reads version x hx {}) h.PartitionStates) : Step _ _ _) t0
theorem LeaderAndIsrTopicState4.tame (version : Int16) (t0 : LeaderAndIsrTopicState4) : Tame (LeaderAndIsrTopicState4.decode version t0) :=
  ((TameStep.onlyIf (TameStep.field tame_string))
    |>.andThen (TameStep.onlyIf (TameStep.structs (LeaderAndIsrPartitionState4.tame version {}))) : TameStep _) t0
theorem LeaderAndIsrTopicState4.calm (version : Int16) (t0 : LeaderAndIsrTopicState4) :
    Calm (LeaderAndIsrTopicState4.decode version t0) (fun _ => True) :=
  ((CalmStep.onlyIf (CalmStep.field tame_string calm_string))
    |>.andThen (CalmStep.onlyIf (CalmStep.structs (LeaderAndIsrPartitionState4.tame version {}) (LeaderAndIsrPartitionState4.calm version {}))) : CalmStep _).2 t0
theorem LeaderAndIsrTopicState4.canon (version : Int16) (t : LeaderAndIsrTopicState4) (h : t.Canon version) :
    t.seen version {} = t :=
  LeaderAndIsrTopicState4.ext (canon_opt h.TopicName) (canon_optStructs (LeaderAndIsrPartitionState4.canon version) h.PartitionStates.1 h.PartitionStates.2)
theorem LeaderAndIsrTopicState4.again (version : Int16) (t t0 : LeaderAndIsrTopicState4) :
    LeaderAndIsrTopicState4.wire version (t.seen version t0) = LeaderAndIsrTopicState4.wire version t :=
  app_congr (again_opt Wire.string t.TopicName t0.TopicName) (again_optStructs (fun x => LeaderAndIsrPartitionState4.again version x {}) t.PartitionStates t0.PartitionStates)
theorem LeaderAndIsrTopicState4.lawful : Lawful LeaderAndIsrTopicState4.type LeaderAndIsrTopicState4.layout :=
  ⟨LeaderAndIsrTopicState4.emits, LeaderAndIsrTopicState4.sized, LeaderAndIsrTopicState4.reads, LeaderAndIsrTopicState4.tame, LeaderAndIsrTopicState4.calm, LeaderAndIsrTopicState4.canon, LeaderAndIsrTopicState4.again⟩

theorem LeaderAndIsrLiveLeader4.emits (version : Int16) (t : LeaderAndIsrLiveLeader4) :
    Emits (LeaderAndIsrLiveLeader4.encode version t) (LeaderAndIsrLiveLeader4.wire version t) :=
  (emits_int32 t.BrokerId)
    |>.andThen (emits_string t.HostName)
    |>.andThen (emits_int32 t.Port)
theorem LeaderAndIsrLiveLeader4.sized (version : Int16) (t : LeaderAndIsrLiveLeader4) :
    Sized (LeaderAndIsrLiveLeader4.size version t) (LeaderAndIsrLiveLeader4.wire version t) :=
  Grows.sized ((Grows.add (sized_int32 t.BrokerId))
    |>.andThen (Grows.add (sized_string t.HostName))
    |>.andThen (Grows.add (sized_int32 t.Port)))
theorem LeaderAndIsrLiveLeader4.reads (version : Int16) (t : LeaderAndIsrLiveLeader4) (h : t.Fits version) (t0 : LeaderAndIsrLiveLeader4) :
    Reads (LeaderAndIsrLiveLeader4.decode version t0) (LeaderAndIsrLiveLeader4.wire version t) (t.seen version t0) :=
  ((Step.field (set := fun (t : LeaderAndIsrLiveLeader4) x => { t with BrokerId := x }) (reads_int32 t.BrokerId))
    |>.andThen (Step.field (set := fun (t : LeaderAndIsrLiveLeader4) x => { t with HostName := x }) (reads_string h.HostName))
    |>.andThen (Step.field (set := fun (t : LeaderAndIsrLiveLeader4) x => { t with Port := x }) (reads_int32 t.Port)) : Step _ _ _) t0
theorem LeaderAndIsrLiveLeader4.tame (version : Int16) (t0 : LeaderAndIsrLiveLeader4) : Tame (LeaderAndIsrLiveLeader4.decode version t0) :=
  ((TameStep.field tame_int32)
    |>.andThen (TameStep.field tame_string)
    |>.andThen (TameStep.field tame_int32) : TameStep _) t0
theorem LeaderAndIsrLiveLeader4.calm (version : Int16) (t0 : LeaderAndIsrLiveLeader4) :
    Calm (LeaderAndIsrLiveLeader4.decode version t0) (fun _ => True) :=
  ((CalmStep.field tame_int32 calm_int32)
    |>.andThen (CalmStep.field tame_string calm_string)
    |>.andThen (CalmStep.field tame_int32 calm_int32) : CalmStep _).2 t0
theorem LeaderAndIsrLiveLeader4.canon (version : Int16) (t : LeaderAndIsrLiveLeader4) (_h : t.Canon version) :
    t.seen version {} = t :=
  LeaderAndIsrLiveLeader4.ext rfl rfl rfl
theorem LeaderAndIsrLiveLeader4.again (version : Int16) (t t0 : LeaderAndIsrLiveLeader4) :
    LeaderAndIsrLiveLeader4.wire version (t.seen version t0) = LeaderAndIsrLiveLeader4.wire version t :=
  app_congr (app_congr (rfl) (rfl)) (rfl)
theorem LeaderAndIsrLiveLeader4.lawful : Lawful LeaderAndIsrLiveLeader4.type LeaderAndIsrLiveLeader4.layout :=
  ⟨LeaderAndIsrLiveLeader4.emits, LeaderAndIsrLiveLeader4.sized, LeaderAndIsrLiveLeader4.reads, LeaderAndIsrLiveLeader4.tame, LeaderAndIsrLiveLeader4.calm, LeaderAndIsrLiveLeader4.canon, LeaderAndIsrLiveLeader4.again⟩

theorem LeaderAndIsrRequest.emits (version : Int16) (t : LeaderAndIsrRequest) :
    Emits (LeaderAndIsrRequest.encode version t) (LeaderAndIsrRequest.wire version t) :=
  (emits_int32 t.ControllerId)
    |>.andThen (emits_int32 t.ControllerEpoch)
    |>.andThen (Emits.onlyIf (emits_int64 t.BrokerEpoch))
    |>.andThen (Emits.onlyIf (emits_structs (LeaderAndIsrPartitionState4.emits version) t.UngroupedPartitionStates))
    |>.andThen (Emits.onlyIf (emits_structs (LeaderAndIsrTopicState4.emits version) t.TopicStates))
    |>.andThen (emits_structs (LeaderAndIsrLiveLeader4.emits version) t.LiveLeaders)
theorem LeaderAndIsrRequest.sized (version : Int16) (t : LeaderAndIsrRequest) :
    Sized (LeaderAndIsrRequest.size version t) (LeaderAndIsrRequest.wire version t) :=
  Grows.sized ((Grows.add (sized_int32 t.ControllerId))
    |>.andThen (Grows.add (sized_int32 t.ControllerEpoch))
    |>.andThen (Grows.onlyIf (Grows.add (sized_int64 t.BrokerEpoch)))
    |>.andThen (Grows.onlyIf (Grows.structs (LeaderAndIsrPartitionState4.sized version) t.UngroupedPartitionStates))
    |>.andThen (Grows.onlyIf (Grows.structs (LeaderAndIsrTopicState4.sized version) t.TopicStates))
    |>.andThen (Grows.structs (LeaderAndIsrLiveLeader4.sized version) t.LiveLeaders))
theorem LeaderAndIsrRequest.reads (version : Int16) (t : LeaderAndIsrRequest) (h : t.Fits version) (t0 : LeaderAndIsrRequest) :
    Reads (LeaderAndIsrRequest.decode version t0) (LeaderAndIsrRequest.wire version t) (t.seen version t0) :=
  ((Step.field (set := fun (t : LeaderAndIsrRequest) x => { t with ControllerId := x }) (reads_int32 t.ControllerId))
    |>.andThen (Step.field (set := fun (t : LeaderAndIsrRequest) x => { t with ControllerEpoch := x }) (reads_int32 t.ControllerEpoch))
    |>.andThen (Step.optField (c := version ≥ 2) (set := fun (t : LeaderAndIsrRequest) x => { t with BrokerEpoch := x }) (·.BrokerEpoch) (fun _ => rfl) fun _ => reads_int64 t.BrokerEpoch)
    |>.andThen (Step.optStructs (c := version ≥ 0 ∧ version ≤ 1) (get := fun (t : LeaderAndIsrRequest) => t.UngroupedPartitionStates) (set := fun (t : LeaderAndIsrRequest) x => { t with UngroupedPartitionStates := x }) (fun _ => rfl) (fun x hx => LeaderAndIsrPartitionState4.reads version x hx {}) h.UngroupedPartitionStates)
    |>.andThen (Step.optStructs (c := version ≥ 2) (get := fun (t : LeaderAndIsrRequest) => t.TopicStates) (set := fun (t : LeaderAndIsrRequest) x => { t with TopicStates := x }) (fun _ => rfl) (fun x hx => LeaderAndIsrTopicState4.reads version x hx {}) h.TopicStates)
    |>.andThen (Step.structs (get := fun (t : LeaderAndIsrRequest) => t.LiveLeaders) (set := fun (t : LeaderAndIsrRequest) x => { t with LiveLeaders := x }) (fun x hx => LeaderAndIsrLiveLeader4.reads version x hx {}) h.LiveLeaders) : Step _ _ _) t0
theorem LeaderAndIsrRequest.tame (version : Int16) (t0 : LeaderAndIsrRequest) : Tame (LeaderAndIsrRequest.decode version t0) :=
  ((TameStep.field tame_int32)
    |>.andThen (TameStep.field tame_int32)
    |>.andThen (TameStep.onlyIf (TameStep.field tame_int64))
    |>.andThen (TameStep.onlyIf (TameStep.structs (LeaderAndIsrPartitionState4.tame version {})))
    |>.andThen (TameStep.onlyIf (TameStep.structs (LeaderAndIsrTopicState4.tame version {})))
    |>.andThen (TameStep.structs (LeaderAndIsrLiveLeader4.tame version {})) : TameStep _) t0
theorem LeaderAndIsrRequest.calm (version : Int16) (t0 : LeaderAndIsrRequest) :
    Calm (LeaderAndIsrRequest.decode version t0) (fun _ => True) :=
  ((CalmStep.field tame_int32 calm_int32)
    |>.andThen (CalmStep.field tame_int32 calm_int32)
    |>.andThen (CalmStep.onlyIf (CalmStep.field tame_int64 calm_int64))
    |>.andThen (CalmStep.onlyIf (CalmStep.structs (LeaderAndIsrPartitionState4.tame version {}) (LeaderAndIsrPartitionState4.calm version {})))
    |>.andThen (CalmStep.onlyIf (CalmStep.structs (LeaderAndIsrTopicState4.tame version {}) (LeaderAndIsrTopicState4.calm version {})))
    |>.andThen (CalmStep.structs (LeaderAndIsrLiveLeader4.tame version {}) (LeaderAndIsrLiveLeader4.calm version {})) : CalmStep _).2 t0
theorem LeaderAndIsrRequest.canon (version : Int16) (t : LeaderAndIsrRequest) (h : t.Canon version) :
    t.seen version {} = t :=
  LeaderAndIsrRequest.ext rfl rfl (canon_opt h.BrokerEpoch) (canon_optStructs (LeaderAndIsrPartitionState4.canon version) h.UngroupedPartitionStates.1 h.UngroupedPartitionStates.2) (canon_optStructs (LeaderAndIsrTopicState4.canon version) h.TopicStates.1 h.TopicStates.2) (canon_structs (LeaderAndIsrLiveLeader4.canon version) h.LiveLeaders)
theorem LeaderAndIsrRequest.again (version : Int16) (t t0 : LeaderAndIsrRequest) :
    LeaderAndIsrRequest.wire version (t.seen version t0) = LeaderAndIsrRequest.wire version t :=
  app_congr (app_congr (app_congr (app_congr (app_congr (rfl) (rfl)) (again_opt Wire.int64 t.BrokerEpoch t0.BrokerEpoch)) (again_optStructs (fun x => LeaderAndIsrPartitionState4.again version x {}) t.UngroupedPartitionStates t0.UngroupedPartitionStates)) (again_optStructs (fun x => LeaderAndIsrTopicState4.again version x {}) t.TopicStates t0.TopicStates)) (again_structs (fun x => LeaderAndIsrLiveLeader4.again version x {}) t.LiveLeaders)
theorem LeaderAndIsrRequest.lawful : Lawful LeaderAndIsrRequest.type LeaderAndIsrRequest.layout :=
  ⟨LeaderAndIsrRequest.emits, LeaderAndIsrRequest.sized, LeaderAndIsrRequest.reads, LeaderAndIsrRequest.tame, LeaderAndIsrRequest.calm, LeaderAndIsrRequest.canon, LeaderAndIsrRequest.again⟩

theorem LeaderAndIsrPartitionError4.emits (version : Int16) (t : LeaderAndIsrPartitionError4) :
    Emits (LeaderAndIsrPartitionError4.encode version t) (LeaderAndIsrPartitionError4.wire version t) :=
  (emits_string t.TopicName)
    |>.andThen (emits_int32 t.PartitionIndex)
    |>.andThen (emits_int16 t.ErrorCode)
theorem LeaderAndIsrPartitionError4.sized (version : Int16) (t : LeaderAndIsrPartitionError4) :
    Sized (LeaderAndIsrPartitionError4.size version t) (LeaderAndIsrPartitionError4.wire version t) :=
  Grows.sized ((Grows.add (sized_string t.TopicName))
    |>.andThen (Grows.add (sized_int32 t.PartitionIndex))
    |>.andThen (Grows.add (sized_int16 t.ErrorCode)))
theorem LeaderAndIsrPartitionError4.reads (version : Int16) (t : LeaderAndIsrPartitionError4) (h : t.Fits version) (t0 : LeaderAndIsrPartitionError4) :
    Reads (LeaderAndIsrPartitionError4.decode version t0) (LeaderAndIsrPartitionError4.wire version t) (t.seen version t0) :=
  ((Step.field (set := fun (t : LeaderAndIsrPartitionError4) x => { t with TopicName := x }) (reads_string h.TopicName))
    |>.andThen (Step.field (set := fun (t : LeaderAndIsrPartitionError4) x => { t with PartitionIndex := x }) (reads_int32 t.PartitionIndex))
    |>.andThen (Step.field (set := fun (t : LeaderAndIsrPartitionError4) x => { t with ErrorCode := x }) (reads_int16 t.ErrorCode)) : Step _ _ _) t0
theorem LeaderAndIsrPartitionError4.tame (version : Int16) (t0 : LeaderAndIsrPartitionError4) : Tame (LeaderAndIsrPartitionError4.decode version t0) :=
  ((TameStep.field tame_string)
    |>.andThen (TameStep.field tame_int32)
    |>.andThen (TameStep.field tame_int16) : TameStep _) t0
theorem LeaderAndIsrPartitionError4.calm (version : Int16) (t0 : LeaderAndIsrPartitionError4) :
    Calm (LeaderAndIsrPartitionError4.decode version t0) (fun _ => True) :=
  ((CalmStep.field tame_string calm_string)
    |>.andThen (CalmStep.field tame_int32 calm_int32)
    |>.andThen (CalmStep.field tame_int16 calm_int16) : CalmStep _).2 t0
theorem LeaderAndIsrPartitionError4.canon (version : Int16) (t : LeaderAndIsrPartitionError4) (_h : t.Canon version) :
    t.seen version {} = t :=
  LeaderAndIsrPartitionError4.ext rfl rfl rfl
theorem LeaderAndIsrPartitionError4.again (version : Int16) (t t0 : LeaderAndIsrPartitionError4) :
    LeaderAndIsrPartitionError4.wire version (t.seen version t0) = LeaderAndIsrPartitionError4.wire version t :=
  app_congr (app_congr (rfl) (rfl)) (rfl)
theorem LeaderAndIsrPartitionError4.lawful : Lawful LeaderAndIsrPartitionError4.type LeaderAndIsrPartitionError4.layout :=
  ⟨LeaderAndIsrPartitionError4.emits, LeaderAndIsrPartitionError4.sized, LeaderAndIsrPartitionError4.reads, LeaderAndIsrPartitionError4.tame, LeaderAndIsrPartitionError4.calm, LeaderAndIsrPartitionError4.canon, LeaderAndIsrPartitionError4.again⟩

theorem LeaderAndIsrResponse.emits (version : Int16) (t : LeaderAndIsrResponse) :
    Emits (LeaderAndIsrResponse.encode version t) (LeaderAndIsrResponse.wire version t) :=
  (emits_int16 t.ErrorCode)
    |>.andThen (emits_structs (LeaderAndIsrPartitionError4.emits version) t.PartitionErrors)
theorem LeaderAndIsrResponse.sized (version : Int16) (t : LeaderAndIsrResponse) :
    Sized (LeaderAndIsrResponse.size version t) (LeaderAndIsrResponse.wire version t) :=
  Grows.sized ((Grows.add (sized_int16 t.ErrorCode))
    |>.andThen (Grows.structs (LeaderAndIsrPartitionError4.sized version) t.PartitionErrors))
theorem LeaderAndIsrResponse.reads (version : Int16) (t : LeaderAndIsrResponse) (h : t.Fits version) (t0 : LeaderAndIsrResponse) :
    Reads (LeaderAndIsrResponse.decode version t0) (LeaderAndIsrResponse.wire version t) (t.seen version t0) :=
  ((Step.field (set := fun (t : LeaderAndIsrResponse) x => { t with ErrorCode := x }) (reads_int16 t.ErrorCode))
    |>.andThen (Step.structs (get := fun (t : LeaderAndIsrResponse) => t.PartitionErrors) (set := fun (t : LeaderAndIsrResponse) x => { t with PartitionErrors := x }) (fun x hx => LeaderAndIsrPartitionError4.reads version x hx {}) h.PartitionErrors) : Step _ _ _) t0
theorem LeaderAndIsrResponse.tame (version : Int16) (t0 : LeaderAndIsrResponse) : Tame (LeaderAndIsrResponse.decode version t0) :=
  ((TameStep.field tame_int16)
    |>.andThen (TameStep.structs (LeaderAndIsrPartitionError4.tame version {})) : TameStep _) t0
theorem LeaderAndIsrResponse.calm (version : Int16) (t0 : LeaderAndIsrResponse) :
    Calm (LeaderAndIsrResponse.decode version t0) (fun _ => True) :=
  ((CalmStep.field tame_int16 calm_int16)
    |>.andThen (CalmStep.structs (LeaderAndIsrPartitionError4.tame version {}) (LeaderAndIsrPartitionError4.calm version {})) : CalmStep _).2 t0
theorem LeaderAndIsrResponse.canon (version : Int16) (t : LeaderAndIsrResponse) (h : t.Canon version) :
    t.seen version {} = t :=
  LeaderAndIsrResponse.ext rfl (canon_structs (LeaderAndIsrPartitionError4.canon version) h.PartitionErrors)
theorem LeaderAndIsrResponse.again (version : Int16) (t t0 : LeaderAndIsrResponse) :
    LeaderAndIsrResponse.wire version (t.seen version t0) = LeaderAndIsrResponse.wire version t :=
  app_congr (rfl) (again_structs (fun x => LeaderAndIsrPartitionError4.again version x {}) t.PartitionErrors)
theorem LeaderAndIsrResponse.lawful : Lawful LeaderAndIsrResponse.type LeaderAndIsrResponse.layout :=
  ⟨LeaderAndIsrResponse.emits, LeaderAndIsrResponse.sized, LeaderAndIsrResponse.reads, LeaderAndIsrResponse.tame, LeaderAndIsrResponse.calm, LeaderAndIsrResponse.canon, LeaderAndIsrResponse.again⟩

end Kafka.Msg
