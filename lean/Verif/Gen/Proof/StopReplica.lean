import Verif.Message.StepLemmas
import Verif.Gen.Spec.StopReplica
/-!
Generated by tools/gen_messages.py: laws of the StopReplica messages.
-/
namespace Kafka.Msg

theorem StopReplicaPartitionV05.emits (version : Int16) (t : StopReplicaPartitionV05) :
    Emits (StopReplicaPartitionV05.encode version t) (StopReplicaPartitionV05.wire version t) :=
  (Emits.onlyIf (emits_string t.TopicName))
    |>.andThen (Emits.onlyIf (emits_int32 t.PartitionIndex))
theorem StopReplicaPartitionV05.sized (version : Int16) (t : StopReplicaPartitionV05) :
    Sized (StopReplicaPartitionV05.size version t) (StopReplicaPartitionV05.wire version t) :=
  Grows.sized ((Grows.onlyIf (Grows.add (sized_string t.TopicName)))
    |>.andThen (Grows.onlyIf (Grows.add (sized_int32 t.PartitionIndex))))
theorem StopReplicaPartitionV05.reads (version : Int16) (t : StopReplicaPartitionV05) (h : t.Fits version) (t0 : StopReplicaPartitionV05) :
    Reads (StopReplicaPartitionV05.decode version t0) (StopReplicaPartitionV05.wire version t) (t.seen version t0) :=
  ((Step.optField (c := version ≥ 0 ∧ version ≤ 0) (set := fun (t : StopReplicaPartitionV05) x => { t with TopicName := x }) (·.TopicName) (fun _ => rfl) fun hc => reads_string (h.TopicName hc))
    |>.andThen (Step.optField (c := version ≥ 0 ∧ version ≤ 0) (set := fun (t : StopReplicaPartitionV05) x => { t with PartitionIndex := x }) (·.PartitionIndex) (fun _ => rfl) fun _ => reads_int32 t.PartitionIndex) : Step _ _ _) t0
theorem StopReplicaPartitionV05.tame (version : Int16) (t0 : StopReplicaPartitionV05) : Tame (StopReplicaPartitionV05.decode version t0) :=
  ((TameStep.onlyIf (TameStep.field tame_string))
    |>.andThen (TameStep.onlyIf (TameStep.field tame_int32)) : TameStep _) t0
theorem StopReplicaPartitionV05.calm (version : Int16) (t0 : StopReplicaPartitionV05) :
    Calm (StopReplicaPartitionV05.decode version t0) (fun _ => True) :=
  ((CalmStep.onlyIf (CalmStep.field tame_string calm_string))
    |>.andThen (CalmStep.onlyIf (CalmStep.field tame_int32 calm_int32)) : CalmStep _).2 t0
theorem StopReplicaPartitionV05.canon (version : Int16) (t : StopReplicaPartitionV05) (h : t.Canon version) :
    t.seen version {} = t :=
  StopReplicaPartitionV05.ext (canon_opt h.TopicName) (canon_opt h.PartitionIndex)
theorem StopReplicaPartitionV05.again (version : Int16) (t t0 : StopReplicaPartitionV05) :
    StopReplicaPartitionV05.wire version (t.seen version t0) = StopReplicaPartitionV05.wire version t :=
  app_congr (again_opt Wire.string t.TopicName t0.TopicName) (again_opt Wire.int32 t.PartitionIndex t0.PartitionIndex)
theorem StopReplicaPartitionV05.lawful : Lawful StopReplicaPartitionV05.type StopReplicaPartitionV05.layout :=
  ⟨StopReplicaPartitionV05.emits, StopReplicaPartitionV05.sized, StopReplicaPartitionV05.reads, StopReplicaPartitionV05.tame, StopReplicaPartitionV05.calm, StopReplicaPartitionV05.canon, StopReplicaPartitionV05.again⟩

theorem StopReplicaTopic5.emits (version : Int16) (t : StopReplicaTopic5) :
    Emits (StopReplicaTopic5.encode version t) (StopReplicaTopic5.wire version t) :=
  (Emits.onlyIf (emits_string t.Name))
    |>.andThen (Emits.onlyIf (emits_int32Array t.PartitionIndexes))
theorem StopReplicaTopic5.sized (version : Int16) (t : StopReplicaTopic5) :
    Sized (StopReplicaTopic5.size version t) (StopReplicaTopic5.wire version t) :=
  Grows.sized ((Grows.onlyIf (Grows.add (sized_string t.Name)))
    |>.andThen (Grows.onlyIf (Grows.add (sized_int32Array t.PartitionIndexes))))
theorem StopReplicaTopic5.reads (version : Int16) (t : StopReplicaTopic5) (h : t.Fits version) (t0 : StopReplicaTopic5) :
    Reads (StopReplicaTopic5.decode version t0) (StopReplicaTopic5.wire version t) (t.seen version t0) :=
  ((Step.optField (c := version ≥ 1) (set := fun (t : StopReplicaTopic5) x => { t with Name := x }) (·.Name) (fun _ => rfl) fun hc => reads_string (h.Name hc))
    |>.andThen (Step.optField (c := version ≥ 1) (set := fun (t : StopReplicaTopic5) x => { t with PartitionIndexes := x }) (·.PartitionIndexes) (fun _ => rfl) fun hc => reads_int32Array (h.PartitionIndexes hc)) : Step _ _ _) t0
theorem StopReplicaTopic5.tame (version : Int16) (t0 : StopReplicaTopic5) : Tame (StopReplicaTopic5.decode version t0) :=
  ((TameStep.onlyIf (TameStep.field tame_string))
    |>.andThen (TameStep.onlyIf (TameStep.field tame_int32Array)) : TameStep _) t0
theorem StopReplicaTopic5.calm (version : Int16) (t0 : StopReplicaTopic5) :
    Calm (StopReplicaTopic5.decode version t0) (fun _ => True) :=
  ((CalmStep.onlyIf (CalmStep.field tame_string calm_string))
    |>.andThen (CalmStep.onlyIf (CalmStep.field tame_int32Array calm_int32Array)) : CalmStep _).2 t0
theorem StopReplicaTopic5.canon (version : Int16) (t : StopReplicaTopic5) (h : t.Canon version) :
    t.seen version {} = t :=
  StopReplicaTopic5.ext (canon_opt h.Name) (canon_opt h.PartitionIndexes)
theorem StopReplicaTopic5.again (version : Int16) (t t0 : StopReplicaTopic5) :
    StopReplicaTopic5.wire version (t.seen version t0) = StopReplicaTopic5.wire version t :=
  app_congr (again_opt Wire.string t.Name t0.Name) (again_opt Wire.int32Array t.PartitionIndexes t0.PartitionIndexes)
theorem StopReplicaTopic5.lawful : Lawful StopReplicaTopic5.type StopReplicaTopic5.layout :=
  ⟨StopReplicaTopic5.emits, StopReplicaTopic5.sized, StopReplicaTopic5.reads, StopReplicaTopic5.tame, StopReplicaTopic5.calm, StopReplicaTopic5.canon, StopReplicaTopic5.again⟩

theorem StopReplicaRequest.emits (version : Int16) (t : StopReplicaRequest) :
    Emits (StopReplicaRequest.encode version t) (StopReplicaRequest.wire version t) :=
  (emits_int32 t.ControllerId)
    |>.andThen (emits_int32 t.ControllerEpoch)
    |>.andThen (Emits.onlyIf (emits_int64 t.BrokerEpoch))
    |>.andThen (emits_bool t.DeletePartitions)
    |>.andThen (Emits.onlyIf (emits_structs (StopReplicaPartitionV05.emits version) t.UngroupedPartitions))
    |>.andThen (Emits.onlyIf (emits_structs (StopReplicaTopic5.emits version) t.Topics))
theorem StopReplicaRequest.sized (version : Int16) (t : StopReplicaRequest) :
    Sized (StopReplicaRequest.size version t) (StopReplicaRequest.wire version t) :=
  Grows.sized ((Grows.add (sized_int32 t.ControllerId))
    |>.andThen (Grows.add (sized_int32 t.ControllerEpoch))
    |>.andThen (Grows.onlyIf (Grows.add (sized_int64 t.BrokerEpoch)))
    |>.andThen (Grows.add (sized_bool t.DeletePartitions))
    |>.andThen (Grows.onlyIf (Grows.structs (StopReplicaPartitionV05.sized version) t.UngroupedPartitions))
    |>.andThen (Grows.onlyIf (Grows.structs (StopReplicaTopic5.sized version) t.Topics)))
theorem StopReplicaRequest.reads (version : Int16) (t : StopReplicaRequest) (h : t.Fits version) (t0 : StopReplicaRequest) :
    Reads (StopReplicaRequest.decode version t0) (StopReplicaRequest.wire version t) (t.seen version t0) :=
  ((Step.field (set := fun (t : StopReplicaRequest) x => { t with ControllerId := x }) (reads_int32 t.ControllerId))
    |>.andThen (Step.field (set := fun (t : StopReplicaRequest) x => { t with ControllerEpoch := x }) (reads_int32 t.ControllerEpoch))
    |>.andThen (Step.optField (c := version ≥ 1) (set := fun (t : StopReplicaRequest) x => { t with BrokerEpoch := x }) (·.BrokerEpoch) (fun _ => rfl) fun _ => reads_int64 t.BrokerEpoch)
    |>.andThen (Step.field (set := fun (t : StopReplicaRequest) x => { t with DeletePartitions := x }) (reads_bool t.DeletePartitions))
    |>.andThen (Step.optStructs (c := version ≥ 0 ∧ version ≤ 0) (get := fun (t : StopReplicaRequest) => t.UngroupedPartitions) (set := fun (t : StopReplicaRequest) x => { t with UngroupedPartitions := x }) (fun _ => rfl) (fun x hx => StopReplicaPartitionV05.reads version x hx {}) h.UngroupedPartitions)
    |>.andThen (Step.optStructs (c := version ≥ 1) (get := fun (t : StopReplicaRequest) => t.Topics) (set := fun (t : StopReplicaRequest) x => { t with Topics := x }) (fun _ => rfl) (fun x hx => StopReplicaTopic5.reads version x hx {}) h.Topics) : Step _ _ _) t0
theorem StopReplicaRequest.tame (version : Int16) (t0 : StopReplicaRequest) : Tame (StopReplicaRequest.decode version t0) :=
  ((TameStep.field tame_int32)
    |>.andThen (TameStep.field tame_int32)
    |>.andThen (TameStep.onlyIf (TameStep.field tame_int64))
    |>.andThen (TameStep.field tame_bool)
    |>.andThen (TameStep.onlyIf (TameStep.structs (StopReplicaPartitionV05.tame version {})))
    |>.andThen (TameStep.onlyIf (TameStep.structs (StopReplicaTopic5.tame version {}))) : TameStep _) t0
theorem StopReplicaRequest.calm (version : Int16) (t0 : StopReplicaRequest) :
    Calm (StopReplicaRequest.decode version t0) (fun _ => True) :=
  ((CalmStep.field tame_int32 calm_int32)
    |>.andThen (CalmStep.field tame_int32 calm_int32)
    |>.andThen (CalmStep.onlyIf (CalmStep.field tame_int64 calm_int64))
    |>.andThen (CalmStep.field tame_bool calm_bool)
    |>.andThen (CalmStep.onlyIf (CalmStep.structs (StopReplicaPartitionV05.tame version {}) (StopReplicaPartitionV05.calm version {})))
    |>.andThen (CalmStep.onlyIf (CalmStep.structs (StopReplicaTopic5.tame version {}) (StopReplicaTopic5.calm version {}))) : CalmStep _).2 t0
theorem StopReplicaRequest.canon (version : Int16) (t : StopReplicaRequest) (h : t.Canon version) :
    t.seen version {} = t :=
  StopReplicaRequest.ext rfl rfl (canon_opt h.BrokerEpoch) rfl (canon_optStructs (StopReplicaPartitionV05.canon version) h.UngroupedPartitions.1 h.UngroupedPartitions.2) (canon_optStructs (StopReplicaTopic5.canon version) h.Topics.1 h.Topics.2)
theorem StopReplicaRequest.again (version : Int16) (t t0 : StopReplicaRequest) :
    StopReplicaRequest.wire version (t.seen version t0) = StopReplicaRequest.wire version t :=
  app_congr (app_congr (app_congr (app_congr (app_congr (rfl) (rfl)) (again_opt Wire.int64 t.BrokerEpoch t0.BrokerEpoch)) (rfl)) (again_optStructs (fun x => StopReplicaPartitionV05.again version x {}) t.UngroupedPartitions t0.UngroupedPartitions)) (again_optStructs (fun x => StopReplicaTopic5.again version x {}) t.Topics t0.Topics)
theorem StopReplicaRequest.lawful : Lawful StopReplicaRequest.type StopReplicaRequest.layout :=
  ⟨StopReplicaRequest.emits, StopReplicaRequest.sized, StopReplicaRequest.reads, StopReplicaRequest.tame, StopReplicaRequest.calm, StopReplicaRequest.canon, StopReplicaRequest.again⟩

theorem StopReplicaPartitionError5.emits (version : Int16) (t : StopReplicaPartitionError5) :
    Emits (StopReplicaPartitionError5.encode version t) (StopReplicaPartitionError5.wire version t) :=
  (emits_string t.TopicName)
    |>.andThen (emits_int32 t.PartitionIndex)
    |>.andThen (emits_int16 t.ErrorCode)
theorem StopReplicaPartitionError5.sized (version : Int16) (t : StopReplicaPartitionError5) :
    Sized (StopReplicaPartitionError5.size version t) (StopReplicaPartitionError5.wire version t) :=
  Grows.sized ((Grows.add (sized_string t.TopicName))
    |>.andThen (Grows.add (sized_int32 t.PartitionIndex))
    |>.andThen (Grows.add (sized_int16 t.ErrorCode)))
theorem StopReplicaPartitionError5.reads (version : Int16) (t : StopReplicaPartitionError5) (h : t.Fits version) (t0 : StopReplicaPartitionError5) :
    Reads (StopReplicaPartitionError5.decode version t0) (StopReplicaPartitionError5.wire version t) (t.seen version t0) :=
  ((Step.field (set := fun (t : StopReplicaPartitionError5) x => { t with TopicName := x }) (reads_string h.TopicName))
    |>.andThen (Step.field (set := fun (t : StopReplicaPartitionError5) x => { t with PartitionIndex := x }) (reads_int32 t.PartitionIndex))
    |>.andThen (Step.field (set := fun (t : StopReplicaPartitionError5) x => { t with ErrorCode := x }) (reads_int16 t.ErrorCode)) : Step _ _ _) t0
theorem StopReplicaPartitionError5.tame (version : Int16) (t0 : StopReplicaPartitionError5) : Tame (StopReplicaPartitionError5.decode version t0) :=
  ((TameStep.field tame_string)
    |>.andThen (TameStep.field tame_int32)
    |>.andThen (TameStep.field tame_int16) : TameStep _) t0
theorem StopReplicaPartitionError5.calm (version : Int16) (t0 : StopReplicaPartitionError5) :
    Calm (StopReplicaPartitionError5.decode version t0) (fun _ => True) :=
  ((CalmStep.field tame_string calm_string)
    |>.andThen (CalmStep.field tame_int32 calm_int32)
    |>.andThen (CalmStep.field tame_int16 calm_int16) : CalmStep _).2 t0
theorem StopReplicaPartitionError5.canon (version : Int16) (t : StopReplicaPartitionError5) (_h : t.Canon version) :
    t.seen version {} = t :=
  StopReplicaPartitionError5.ext rfl rfl rfl
theorem StopReplicaPartitionError5.again (version : Int16) (t t0 : StopReplicaPartitionError5) :
    StopReplicaPartitionError5.wire version (t.seen version t0) = StopReplicaPartitionError5.wire version t :=
  app_congr (app_congr (rfl) (rfl)) (rfl)
theorem StopReplicaPartitionError5.lawful : Lawful StopReplicaPartitionError5.type StopReplicaPartitionError5.layout :=
  ⟨StopReplicaPartitionError5.emits, StopReplicaPartitionError5.sized, StopReplicaPartitionError5.reads, StopReplicaPartitionError5.tame, StopReplicaPartitionError5.calm, StopReplicaPartitionError5.canon, StopReplicaPartitionError5.again⟩

theorem StopReplicaResponse.emits (version : Int16) (t : StopReplicaResponse) :
    Emits (StopReplicaResponse.encode version t) (StopReplicaResponse.wire version t) :=
  (emits_int16 t.ErrorCode)
    |>.andThen (emits_structs (StopReplicaPartitionError5.emits version) t.PartitionErrors)
theorem StopReplicaResponse.sized (version : Int16) (t : StopReplicaResponse) :
    Sized (StopReplicaResponse.size version t) (StopReplicaResponse.wire version t) :=
  Grows.sized ((Grows.add (sized_int16 t.ErrorCode))
    |>.andThen (Grows.structs (StopReplicaPartitionError5.sized version) t.PartitionErrors))
theorem StopReplicaResponse.reads (version : Int16) (t : StopReplicaResponse) (h : t.Fits version) (t0 : StopReplicaResponse) :
    Reads (StopReplicaResponse.decode version t0) (StopReplicaResponse.wire version t) (t.seen version t0) :=
  ((Step.field (set := fun (t : StopReplicaResponse) x => { t with ErrorCode := x }) (reads_int16 t.ErrorCode))
    |>.andThen (Step.structs (get := fun (t : StopReplicaResponse) => t.PartitionErrors) (set := fun (t : StopReplicaResponse) x => { t with PartitionErrors := x }) (fun x hx => StopReplicaPartitionError5.reads version x hx {}) h.PartitionErrors) : Step _ _ _) t0
theorem StopReplicaResponse.tame (version : Int16) (t0 : StopReplicaResponse) : Tame (StopReplicaResponse.decode version t0) :=
  ((TameStep.field tame_int16)
    |>.andThen (TameStep.structs (StopReplicaPartitionError5.tame version {})) : TameStep _) t0
theorem StopReplicaResponse.calm (version : Int16) (t0 : StopReplicaResponse) :
    Calm (StopReplicaResponse.decode version t0) (fun _ => True) :=
  ((CalmStep.field tame_int16 calm_int16)
    |>.andThen (CalmStep.structs (StopReplicaPartitionError5.tame version {}) (StopReplicaPartitionError5.calm version {})) : CalmStep _).2 t0
theorem StopReplicaResponse.canon (version : Int16) (t : StopReplicaResponse) (h : t.Canon version) :
    t.seen version {} = t :=
  StopReplicaResponse.ext rfl (canon_structs (StopReplicaPartitionError5.canon version) h.PartitionErrors)
theorem StopReplicaResponse.again (version : Int16) (t t0 : StopReplicaResponse) :
    StopReplicaResponse.wire version (t.seen version t0) = StopReplicaResponse.wire version t :=
  app_congr (rfl) (again_structs (fun x => StopReplicaPartitionError5.again version x {}) t.PartitionErrors)
theorem StopReplicaResponse.lawful : Lawful StopReplicaResponse.type StopReplicaResponse.layout :=
  ⟨StopReplicaResponse.emits, StopReplicaResponse.sized, StopReplicaResponse.reads, StopReplicaResponse.tame, StopReplicaResponse.calm, StopReplicaResponse.canon, StopReplicaResponse.again⟩

end Kafka.Msg
