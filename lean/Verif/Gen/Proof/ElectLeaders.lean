import Verif.Message.StepLemmas
import Verif.Gen.Spec.ElectLeaders
/-!
Generated by tools/gen_messages.py: laws of the ElectLeaders messages.
-/
namespace Kafka.Msg

theorem TopicPartitions43.emits (version : Int16) (t : TopicPartitions43) :
    Emits (TopicPartitions43.encode version t) (TopicPartitions43.wire version t) :=
  (emits_string t.Topic)
    |>.andThen (emits_int32Array t.PartitionId)
theorem TopicPartitions43.sized (version : Int16) (t : TopicPartitions43) :
    Sized (TopicPartitions43.size version t) (TopicPartitions43.wire version t) :=
  Grows.sized ((Grows.add (sized_string t.Topic))
    |>.andThen (Grows.add (sized_int32Array t.PartitionId)))
theorem TopicPartitions43.reads (version : Int16) (t : TopicPartitions43) (h : t.Fits version) (t0 : TopicPartitions43) :
    Reads (TopicPartitions43.decode version t0) (TopicPartitions43.wire version t) (t.seen version t0) :=
  ((Step.field (set := fun (t : TopicPartitions43) x => { t with Topic := x }) (reads_string h.Topic))
    |>.andThen (Step.field (set := fun (t : TopicPartitions43) x => { t with PartitionId := x }) (reads_int32Array h.PartitionId)) : Step _ _ _) t0
theorem TopicPartitions43.tame (version : Int16) (t0 : TopicPartitions43) : Tame (TopicPartitions43.decode version t0) :=
  ((TameStep.field tame_string)
    |>.andThen (TameStep.field tame_int32Array) : TameStep _) t0
theorem TopicPartitions43.calm (version : Int16) (t0 : TopicPartitions43) :
    Calm (TopicPartitions43.decode version t0) (fun _ => True) :=
  ((CalmStep.field tame_string calm_string)
    |>.andThen (CalmStep.field tame_int32Array calm_int32Array) : CalmStep _).2 t0
theorem TopicPartitions43.canon (version : Int16) (t : TopicPartitions43) (_h : t.Canon version) :
    t.seen version {} = t :=
  TopicPartitions43.ext rfl rfl
theorem TopicPartitions43.again (version : Int16) (t t0 : TopicPartitions43) :
    TopicPartitions43.wire version (t.seen version t0) = TopicPartitions43.wire version t :=
  app_congr (rfl) (rfl)
theorem TopicPartitions43.lawful : Lawful TopicPartitions43.type TopicPartitions43.layout :=
  ⟨TopicPartitions43.emits, TopicPartitions43.sized, TopicPartitions43.reads, TopicPartitions43.tame, TopicPartitions43.calm, TopicPartitions43.canon, TopicPartitions43.again⟩

theorem ElectLeadersRequest.emits (version : Int16) (t : ElectLeadersRequest) :
    Emits (ElectLeadersRequest.encode version t) (ElectLeadersRequest.wire version t) :=
  (Emits.onlyIf (emits_int8 t.ElectionType))
    |>.andThen (emits_structs (TopicPartitions43.emits version) t.TopicPartitions)
    |>.andThen (emits_int32 t.TimeoutMs)
theorem ElectLeadersRequest.sized (version : Int16) (t : ElectLeadersRequest) :
    Sized (ElectLeadersRequest.size version t) (ElectLeadersRequest.wire version t) :=
  Grows.sized ((Grows.onlyIf (Grows.add (sized_int8 t.ElectionType)))
    |>.andThen (Grows.structs (TopicPartitions43.sized version) t.TopicPartitions)
    |>.andThen (Grows.add (sized_int32 t.TimeoutMs)))
theorem ElectLeadersRequest.reads (version : Int16) (t : ElectLeadersRequest) (h : t.Fits version) (t0 : ElectLeadersRequest) :
    Reads (ElectLeadersRequest.decode version t0) (ElectLeadersRequest.wire version t) (t.seen version t0) :=
  ((Step.optField (c := version ≥ 1) (set := fun (t : ElectLeadersRequest) x => { t with ElectionType := x }) (·.ElectionType) (fun _ => rfl) fun _ => reads_int8 t.ElectionType)
    |>.andThen (Step.structs (get := fun (t : ElectLeadersRequest) => t.TopicPartitions) (set := fun (t : ElectLeadersRequest) x => { t with TopicPartitions := x }) (fun x hx => TopicPartitions43.reads version x hx {}) h.TopicPartitions)
    |>.andThen (Step.field (set := fun (t : ElectLeadersRequest) x => { t with TimeoutMs := x }) (reads_int32 t.TimeoutMs)) : Step _ _ _) t0
theorem ElectLeadersRequest.tame (version : Int16) (t0 : ElectLeadersRequest) : Tame (ElectLeadersRequest.decode version t0) :=
  ((TameStep.onlyIf (TameStep.field tame_int8))
    |>.andThen (TameStep.structs (TopicPartitions43.tame version {}))
    |>.andThen (TameStep.field tame_int32) : TameStep _) t0
theorem ElectLeadersRequest.calm (version : Int16) (t0 : ElectLeadersRequest) :
    Calm (ElectLeadersRequest.decode version t0) (fun _ => True) :=
  ((CalmStep.onlyIf (CalmStep.field tame_int8 calm_int8))
    |>.andThen (CalmStep.structs (TopicPartitions43.tame version {}) (TopicPartitions43.calm version {}))
    |>.andThen (CalmStep.field tame_int32 calm_int32) : CalmStep _).2 t0
theorem ElectLeadersRequest.canon (version : Int16) (t : ElectLeadersRequest) (h : t.Canon version) :
    t.seen version {} = t :=
  ElectLeadersRequest.ext (canon_opt h.ElectionType) (canon_structs (TopicPartitions43.canon version) h.TopicPartitions) rfl
theorem ElectLeadersRequest.again (version : Int16) (t t0 : ElectLeadersRequest) :
    ElectLeadersRequest.wire version (t.seen version t0) = ElectLeadersRequest.wire version t :=
  app_congr (app_congr (again_opt Wire.int8 t.ElectionType t0.ElectionType) (again_structs (fun x => TopicPartitions43.again version x {}) t.TopicPartitions)) (rfl)
theorem ElectLeadersRequest.lawful : Lawful ElectLeadersRequest.type ElectLeadersRequest.layout :=
  ⟨ElectLeadersRequest.emits, ElectLeadersRequest.sized, ElectLeadersRequest.reads, ElectLeadersRequest.tame, ElectLeadersRequest.calm, ElectLeadersRequest.canon, ElectLeadersRequest.again⟩

theorem PartitionResult43.emits (version : Int16) (t : PartitionResult43) :
    Emits (PartitionResult43.encode version t) (PartitionResult43.wire version t) :=
  (emits_int32 t.PartitionId)
    |>.andThen (emits_int16 t.ErrorCode)
    |>.andThen (emits_string t.ErrorMessage)
theorem PartitionResult43.sized (version : Int16) (t : PartitionResult43) :
    Sized (PartitionResult43.size version t) (PartitionResult43.wire version t) :=
  Grows.sized ((Grows.add (sized_int32 t.PartitionId))
    |>.andThen (Grows.add (sized_int16 t.ErrorCode))
    |>.andThen (Grows.add (sized_string t.ErrorMessage)))
theorem PartitionResult43.reads (version : Int16) (t : PartitionResult43) (h : t.Fits version) (t0 : PartitionResult43) :
    Reads (PartitionResult43.decode version t0) (PartitionResult43.wire version t) (t.seen version t0) :=
  ((Step.field (set := fun (t : PartitionResult43) x => { t with PartitionId := x }) (reads_int32 t.PartitionId))
    |>.andThen (Step.field (set := fun (t : PartitionResult43) x => { t with ErrorCode := x }) (reads_int16 t.ErrorCode))
    |>.andThen (Step.field (set := fun (t : PartitionResult43) x => { t with ErrorMessage := x }) (reads_string h.ErrorMessage)) : Step _ _ _) t0
theorem PartitionResult43.tame (version : Int16) (t0 : PartitionResult43) : Tame (PartitionResult43.decode version t0) :=
  ((TameStep.field tame_int32)
    |>.andThen (TameStep.field tame_int16)
    |>.andThen (TameStep.field tame_string) : TameStep _) t0
theorem PartitionResult43.calm (version : Int16) (t0 : PartitionResult43) :
    Calm (PartitionResult43.decode version t0) (fun _ => True) :=
  ((CalmStep.field tame_int32 calm_int32)
    |>.andThen (CalmStep.field tame_int16 calm_int16)
    |>.andThen (CalmStep.field tame_string calm_string) : CalmStep _).2 t0
theorem PartitionResult43.canon (version : Int16) (t : PartitionResult43) (_h : t.Canon version) :
    t.seen version {} = t :=
  PartitionResult43.ext rfl rfl rfl
theorem PartitionResult43.again (version : Int16) (t t0 : PartitionResult43) :
    PartitionResult43.wire version (t.seen version t0) = PartitionResult43.wire version t :=
  app_congr (app_congr (rfl) (rfl)) (rfl)
theorem PartitionResult43.lawful : Lawful PartitionResult43.type PartitionResult43.layout :=
  ⟨PartitionResult43.emits, PartitionResult43.sized, PartitionResult43.reads, PartitionResult43.tame, PartitionResult43.calm, PartitionResult43.canon, PartitionResult43.again⟩

theorem ReplicaElectionResult43.emits (version : Int16) (t : ReplicaElectionResult43) :
    Emits (ReplicaElectionResult43.encode version t) (ReplicaElectionResult43.wire version t) :=
  (emits_string t.Topic)
    |>.andThen (emits_structs (PartitionResult43.emits version) t.PartitionResult)
theorem ReplicaElectionResult43.sized (version : Int16) (t : ReplicaElectionResult43) :
    Sized (ReplicaElectionResult43.size version t) (ReplicaElectionResult43.wire version t) :=
  Grows.sized ((Grows.add (sized_string t.Topic))
    |>.andThen (Grows.structs (PartitionResult43.sized version) t.PartitionResult))
theorem ReplicaElectionResult43.reads (version : Int16) (t : ReplicaElectionResult43) (h : t.Fits version) (t0 : ReplicaElectionResult43) :
    Reads (ReplicaElectionResult43.decode version t0) (ReplicaElectionResult43.wire version t) (t.seen version t0) :=
  ((Step.field (set := fun (t : ReplicaElectionResult43) x => { t with Topic := x }) (reads_string h.Topic))
    |>.andThen (Step.structs (get := fun (t : ReplicaElectionResult43) => t.PartitionResult) (set := fun (t : ReplicaElectionResult43) x => { t with PartitionResult := x }) (fun x hx => PartitionResult43.reads version x hx {}) h.PartitionResult) : Step _ _ _) t0
theorem ReplicaElectionResult43.tame (version : Int16) (t0 : ReplicaElectionResult43) : Tame (ReplicaElectionResult43.decode version t0) :=
  ((TameStep.field tame_string)
    |>.andThen (TameStep.structs (PartitionResult43.tame version {})) : TameStep _) t0
theorem ReplicaElectionResult43.calm (version : Int16) (t0 : ReplicaElectionResult43) :
    Calm (ReplicaElectionResult43.decode version t0) (fun _ => True) :=
  ((CalmStep.field tame_string calm_string)
    |>.andThen (CalmStep.structs (PartitionResult43.tame version {}) (PartitionResult43.calm version {})) : CalmStep _).2 t0
theorem ReplicaElectionResult43.canon (version : Int16) (t : ReplicaElectionResult43) (h : t.Canon version) :
    t.seen version {} = t :=
  ReplicaElectionResult43.ext rfl (canon_structs (PartitionResult43.canon version) h.PartitionResult)
theorem ReplicaElectionResult43.again (version : Int16) (t t0 : ReplicaElectionResult43) :
    ReplicaElectionResult43.wire version (t.seen version t0) = ReplicaElectionResult43.wire version t :=
  app_congr (rfl) (again_structs (fun x => PartitionResult43.again version x {}) t.PartitionResult)
theorem ReplicaElectionResult43.lawful : Lawful ReplicaElectionResult43.type ReplicaElectionResult43.layout :=
  ⟨ReplicaElectionResult43.emits, ReplicaElectionResult43.sized, ReplicaElectionResult43.reads, ReplicaElectionResult43.tame, ReplicaElectionResult43.calm, ReplicaElectionResult43.canon, ReplicaElectionResult43.again⟩

theorem ElectLeadersResponse.emits (version : Int16) (t : ElectLeadersResponse) :
    Emits (ElectLeadersResponse.encode version t) (ElectLeadersResponse.wire version t) :=
  (emits_int32 t.ThrottleTimeMs)
    |>.andThen (Emits.onlyIf (emits_int16 t.ErrorCode))
    |>.andThen (emits_structs (ReplicaElectionResult43.emits version) t.ReplicaElectionResults)
theorem ElectLeadersResponse.sized (version : Int16) (t : ElectLeadersResponse) :
    Sized (ElectLeadersResponse.size version t) (ElectLeadersResponse.wire version t) :=
  Grows.sized ((Grows.add (sized_int32 t.ThrottleTimeMs))
    |>.andThen (Grows.onlyIf (Grows.add (sized_int16 t.ErrorCode)))
    |>.andThen (Grows.structs (ReplicaElectionResult43.sized version) t.ReplicaElectionResults))
theorem ElectLeadersResponse.reads (version : Int16) (t : ElectLeadersResponse) (h : t.Fits version) (t0 : ElectLeadersResponse) :
    Reads (ElectLeadersResponse.decode version t0) (ElectLeadersResponse.wire version t) (t.seen version t0) :=
  ((Step.field (set := fun (t : ElectLeadersResponse) x => { t with ThrottleTimeMs := x }) (reads_int32 t.ThrottleTimeMs))
    |>.andThen (Step.optField (c := version ≥ 1) (set := fun (t : ElectLeadersResponse) x => { t with ErrorCode := x }) (·.ErrorCode) (fun _ => rfl) fun _ => reads_int16 t.ErrorCode)
    |>.andThen (Step.structs (get := fun (t : ElectLeadersResponse) => t.ReplicaElectionResults) (set := fun (t : ElectLeadersResponse) x => { t with ReplicaElectionResults := x }) (fun x hx => ReplicaElectionResult43.reads version x hx {}) h.ReplicaElectionResults) : Step _ _ _) t0
theorem ElectLeadersResponse.tame (version : Int16) (t0 : ElectLeadersResponse) : Tame (ElectLeadersResponse.decode version t0) :=
  ((TameStep.field tame_int32)
    |>.andThen (TameStep.onlyIf (TameStep.field tame_int16))
    |>.andThen (TameStep.structs (ReplicaElectionResult43.tame version {})) : TameStep _) t0
theorem ElectLeadersResponse.calm (version : Int16) (t0 : ElectLeadersResponse) :
    Calm (ElectLeadersResponse.decode version t0) (fun _ => True) :=
  ((CalmStep.field tame_int32 calm_int32)
    |>.andThen (CalmStep.onlyIf (CalmStep.field tame_int16 calm_int16))
    |>.andThen (CalmStep.structs (ReplicaElectionResult43.tame version {}) (ReplicaElectionResult43.calm version {})) : CalmStep _).2 t0
theorem ElectLeadersResponse.canon (version : Int16) (t : ElectLeadersResponse) (h : t.Canon version) :
    t.seen version {} = t :=
  ElectLeadersResponse.ext rfl (canon_opt h.ErrorCode) (canon_structs (ReplicaElectionResult43.canon version) h.ReplicaElectionResults)
theorem ElectLeadersResponse.again (version : Int16) (t t0 : ElectLeadersResponse) :
    ElectLeadersResponse.wire version (t.seen version t0) = ElectLeadersResponse.wire version t :=
  app_congr (app_congr (rfl) (again_opt Wire.int16 t.ErrorCode t0.ErrorCode)) (again_structs (fun x => ReplicaElectionResult43.again version x {}) t.ReplicaElectionResults)
theorem ElectLeadersResponse.lawful : Lawful ElectLeadersResponse.type ElectLeadersResponse.layout :=
  ⟨ElectLeadersResponse.emits, ElectLeadersResponse.sized, ElectLeadersResponse.reads, ElectLeadersResponse.tame, ElectLeadersResponse.calm, ElectLeadersResponse.canon, ElectLeadersResponse.again⟩

end Kafka.Msg
