import Verif.Message.StepLemmas
import Verif.Gen.Spec.AlterPartitionReassignments
/-!
Generated by tools/gen_messages.py: laws of the AlterPartitionReassignments messages.
-/
namespace Kafka.Msg

theorem ReassignablePartition45.emits (version : Int16) (t : ReassignablePartition45) :
    Emits (ReassignablePartition45.encode version t) (ReassignablePartition45.wire version t) :=
  (emits_int32 t.PartitionIndex)
    |>.andThen (emits_int32Array t.Replicas)
theorem ReassignablePartition45.sized (version : Int16) (t : ReassignablePartition45) :
    Sized (ReassignablePartition45.size version t) (ReassignablePartition45.wire version t) :=
  Grows.sized ((Grows.add (sized_int32 t.PartitionIndex))
    |>.andThen (Grows.add (sized_int32Array t.Replicas)))
theorem ReassignablePartition45.reads (version : Int16) (t : ReassignablePartition45) (h : t.Fits version) (t0 : ReassignablePartition45) :
    Reads (ReassignablePartition45.decode version t0) (ReassignablePartition45.wire version t) (t.seen version t0) :=
  ((Step.field (set := fun (t : ReassignablePartition45) x => { t with PartitionIndex := x }) (reads_int32 t.PartitionIndex))
    |>.andThen (Step.field (set := fun (t : ReassignablePartition45) x => { t with Replicas := x }) (reads_int32Array h.Replicas)) : Step _ _ _) t0
theorem ReassignablePartition45.tame (version : Int16) (t0 : ReassignablePartition45) : Tame (ReassignablePartition45.decode version t0) :=
  ((TameStep.field tame_int32)
    |>.andThen (TameStep.field tame_int32Array) : TameStep _) t0
theorem ReassignablePartition45.calm (version : Int16) (t0 : ReassignablePartition45) :
    Calm (ReassignablePartition45.decode version t0) (fun _ => True) :=
  ((CalmStep.field tame_int32 calm_int32)
    |>.andThen (CalmStep.field tame_int32Array calm_int32Array) : CalmStep _).2 t0
theorem ReassignablePartition45.canon (version : Int16) (t : ReassignablePartition45) (_h : t.Canon version) :
    t.seen version {} = t :=
  ReassignablePartition45.ext rfl rfl
theorem ReassignablePartition45.again (version : Int16) (t t0 : ReassignablePartition45) :
    ReassignablePartition45.wire version (t.seen version t0) = ReassignablePartition45.wire version t :=
  app_congr (rfl) (rfl)
theorem ReassignablePartition45.lawful : Lawful ReassignablePartition45.type ReassignablePartition45.layout :=
  ⟨ReassignablePartition45.emits, ReassignablePartition45.sized, ReassignablePartition45.reads, ReassignablePartition45.tame, ReassignablePartition45.calm, ReassignablePartition45.canon, ReassignablePartition45.again⟩

theorem ReassignableTopic45.emits (version : Int16) (t : ReassignableTopic45) :
    Emits (ReassignableTopic45.encode version t) (ReassignableTopic45.wire version t) :=
  (emits_string t.Name)
    |>.andThen (emits_structs (ReassignablePartition45.emits version) t.Partitions)
theorem ReassignableTopic45.sized (version : Int16) (t : ReassignableTopic45) :
    Sized (ReassignableTopic45.size version t) (ReassignableTopic45.wire version t) :=
  Grows.sized ((Grows.add (sized_string t.Name))
    |>.andThen (Grows.structs (ReassignablePartition45.sized version) t.Partitions))
theorem ReassignableTopic45.reads (version : Int16) (t : ReassignableTopic45) (h : t.Fits version) (t0 : ReassignableTopic45) :
    Reads (ReassignableTopic45.decode version t0) (ReassignableTopic45.wire version t) (t.seen version t0) :=
  ((Step.field (set := fun (t : ReassignableTopic45) x => { t with Name := x }) (reads_string h.Name))
    |>.andThen (Step.structs (get := fun (t : ReassignableTopic45) => t.Partitions) (set := fun (t : ReassignableTopic45) x => { t with Partitions := x }) (fun x hx => ReassignablePartition45.reads version x hx {}) h.Partitions) : Step _ _ _) t0
theorem ReassignableTopic45.tame (version : Int16) (t0 : ReassignableTopic45) : Tame (ReassignableTopic45.decode version t0) :=
  ((TameStep.field tame_string)
    |>.andThen (TameStep.structs (ReassignablePartition45.tame version {})) : TameStep _) t0
theorem ReassignableTopic45.calm (version : Int16) (t0 : ReassignableTopic45) :
    Calm (ReassignableTopic45.decode version t0) (fun _ => True) :=
  ((CalmStep.field tame_string calm_string)
    |>.andThen (CalmStep.structs (ReassignablePartition45.tame version {}) (ReassignablePartition45.calm version {})) : CalmStep _).2 t0
theorem ReassignableTopic45.canon (version : Int16) (t : ReassignableTopic45) (h : t.Canon version) :
    t.seen version {} = t :=
  ReassignableTopic45.ext rfl (canon_structs (ReassignablePartition45.canon version) h.Partitions)
theorem ReassignableTopic45.again (version : Int16) (t t0 : ReassignableTopic45) :
    ReassignableTopic45.wire version (t.seen version t0) = ReassignableTopic45.wire version t :=
  app_congr (rfl) (again_structs (fun x => ReassignablePartition45.again version x {}) t.Partitions)
theorem ReassignableTopic45.lawful : Lawful ReassignableTopic45.type ReassignableTopic45.layout :=
  ⟨ReassignableTopic45.emits, ReassignableTopic45.sized, ReassignableTopic45.reads, ReassignableTopic45.tame, ReassignableTopic45.calm, ReassignableTopic45.canon, ReassignableTopic45.again⟩

theorem AlterPartitionReassignmentsRequest.emits (version : Int16) (t : AlterPartitionReassignmentsRequest) :
    Emits (AlterPartitionReassignmentsRequest.encode version t) (AlterPartitionReassignmentsRequest.wire version t) :=
  (emits_int32 t.TimeoutMs)
    |>.andThen (emits_structs (ReassignableTopic45.emits version) t.Topics)
theorem AlterPartitionReassignmentsRequest.sized (version : Int16) (t : AlterPartitionReassignmentsRequest) :
    Sized (AlterPartitionReassignmentsRequest.size version t) (AlterPartitionReassignmentsRequest.wire version t) :=
  Grows.sized ((Grows.add (sized_int32 t.TimeoutMs))
    |>.andThen (Grows.structs (ReassignableTopic45.sized version) t.Topics))
theorem AlterPartitionReassignmentsRequest.reads (version : Int16) (t : AlterPartitionReassignmentsRequest) (h : t.Fits version) (t0 : AlterPartitionReassignmentsRequest) :
    Reads (AlterPartitionReassignmentsRequest.decode version t0) (AlterPartitionReassignmentsRequest.wire version t) (t.seen version t0) :=
  ((Step.field (set := fun (t : AlterPartitionReassignmentsRequest) x => { t with TimeoutMs := x }) (reads_int32 t.TimeoutMs))
    |>.andThen (Step.structs (get := fun (t : AlterPartitionReassignmentsRequest) => t.Topics) (set := fun (t : AlterPartitionReassignmentsRequest) x => { t with Topics := x }) (fun x hx => ReassignableTopic45.reads version x hx {}) h.Topics) : Step _ _ _) t0
theorem AlterPartitionReassignmentsRequest.tame (version : Int16) (t0 : AlterPartitionReassignmentsRequest) : Tame (AlterPartitionReassignmentsRequest.decode version t0) :=
  ((TameStep.field tame_int32)
    |>.andThen (TameStep.structs (ReassignableTopic45.tame version {})) : TameStep _) t0
theorem AlterPartitionReassignmentsRequest.calm (version : Int16) (t0 : AlterPartitionReassignmentsRequest) :
    Calm (AlterPartitionReassignmentsRequest.decode version t0) (fun _ => True) :=
  ((CalmStep.field tame_int32 calm_int32)
    |>.andThen (CalmStep.structs (ReassignableTopic45.tame version {}) (ReassignableTopic45.calm version {})) : CalmStep _).2 t0
theorem AlterPartitionReassignmentsRequest.canon (version : Int16) (t : AlterPartitionReassignmentsRequest) (h : t.Canon version) :
    t.seen version {} = t :=
  AlterPartitionReassignmentsRequest.ext rfl (canon_structs (ReassignableTopic45.canon version) h.Topics)
theorem AlterPartitionReassignmentsRequest.again (version : Int16) (t t0 : AlterPartitionReassignmentsRequest) :
    AlterPartitionReassignmentsRequest.wire version (t.seen version t0) = AlterPartitionReassignmentsRequest.wire version t :=
  app_congr (rfl) (again_structs (fun x => ReassignableTopic45.again version x {}) t.Topics)
theorem AlterPartitionReassignmentsRequest.lawful : Lawful AlterPartitionReassignmentsRequest.type AlterPartitionReassignmentsRequest.layout :=
  ⟨AlterPartitionReassignmentsRequest.emits, AlterPartitionReassignmentsRequest.sized, AlterPartitionReassignmentsRequest.reads, AlterPartitionReassignmentsRequest.tame, AlterPartitionReassignmentsRequest.calm, AlterPartitionReassignmentsRequest.canon, AlterPartitionReassignmentsRequest.again⟩

theorem ReassignablePartitionResponse45.emits (version : Int16) (t : ReassignablePartitionResponse45) :
    Emits (ReassignablePartitionResponse45.encode version t) (ReassignablePartitionResponse45.wire version t) :=
  (emits_int32 t.PartitionIndex)
    |>.andThen (emits_int16 t.ErrorCode)
    |>.andThen (emits_string t.ErrorMessage)
theorem ReassignablePartitionResponse45.sized (version : Int16) (t : ReassignablePartitionResponse45) :
    Sized (ReassignablePartitionResponse45.size version t) (ReassignablePartitionResponse45.wire version t) :=
  Grows.sized ((Grows.add (sized_int32 t.PartitionIndex))
    |>.andThen (Grows.add (sized_int16 t.ErrorCode))
    |>.andThen (Grows.add (sized_string t.ErrorMessage)))
theorem ReassignablePartitionResponse45.reads (version : Int16) (t : ReassignablePartitionResponse45) (h : t.Fits version) (t0 : ReassignablePartitionResponse45) :
    Reads (ReassignablePartitionResponse45.decode version t0) (ReassignablePartitionResponse45.wire version t) (t.seen version t0) :=
  ((Step.field (set := fun (t : ReassignablePartitionResponse45) x => { t with PartitionIndex := x }) (reads_int32 t.PartitionIndex))
    |>.andThen (Step.field (set := fun (t : ReassignablePartitionResponse45) x => { t with ErrorCode := x }) (reads_int16 t.ErrorCode))
    |>.andThen (Step.field (set := fun (t : ReassignablePartitionResponse45) x => { t with ErrorMessage := x }) (reads_string h.ErrorMessage)) : Step _ _ _) t0
theorem ReassignablePartitionResponse45.tame (version : Int16) (t0 : ReassignablePartitionResponse45) : Tame (ReassignablePartitionResponse45.decode version t0) :=
  ((TameStep.field tame_int32)
    |>.andThen (TameStep.field tame_int16)
    |>.andThen (TameStep.field tame_string) : TameStep _) t0
theorem ReassignablePartitionResponse45.calm (version : Int16) (t0 : ReassignablePartitionResponse45) :
    Calm (ReassignablePartitionResponse45.decode version t0) (fun _ => True) :=
  ((CalmStep.field tame_int32 calm_int32)
    |>.andThen (CalmStep.field tame_int16 calm_int16)
    |>.andThen (CalmStep.field tame_string calm_string) : CalmStep _).2 t0
theorem ReassignablePartitionResponse45.canon (version : Int16) (t : ReassignablePartitionResponse45) (_h : t.Canon version) :
    t.seen version {} = t :=
  ReassignablePartitionResponse45.ext rfl rfl rfl
theorem ReassignablePartitionResponse45.again (version : Int16) (t t0 : ReassignablePartitionResponse45) :
    ReassignablePartitionResponse45.wire version (t.seen version t0) = ReassignablePartitionResponse45.wire version t :=
  app_congr (app_congr (rfl) (rfl)) (rfl)
theorem ReassignablePartitionResponse45.lawful : Lawful ReassignablePartitionResponse45.type ReassignablePartitionResponse45.layout :=
  ⟨ReassignablePartitionResponse45.emits, ReassignablePartitionResponse45.sized, ReassignablePartitionResponse45.reads, ReassignablePartitionResponse45.tame, ReassignablePartitionResponse45.calm, ReassignablePartitionResponse45.canon, ReassignablePartitionResponse45.again⟩

theorem ReassignableTopicResponse45.emits (version : Int16) (t : ReassignableTopicResponse45) :
    Emits (ReassignableTopicResponse45.encode version t) (ReassignableTopicResponse45.wire version t) :=
  (emits_string t.Name)
    |>.andThen (emits_structs (ReassignablePartitionResponse45.emits version) t.Partitions)
theorem ReassignableTopicResponse45.sized (version : Int16) (t : ReassignableTopicResponse45) :
    Sized (ReassignableTopicResponse45.size version t) (ReassignableTopicResponse45.wire version t) :=
  Grows.sized ((Grows.add (sized_string t.Name))
    |>.andThen (Grows.structs (ReassignablePartitionResponse45.sized version) t.Partitions))
theorem ReassignableTopicResponse45.reads (version : Int16) (t : ReassignableTopicResponse45) (h : t.Fits version) (t0 : ReassignableTopicResponse45) :
    Reads (ReassignableTopicResponse45.decode version t0) (ReassignableTopicResponse45.wire version t) (t.seen version t0) :=
  ((Step.field (set := fun (t : ReassignableTopicResponse45) x => { t with Name := x }) (reads_string h.Name))
    |>.andThen (Step.structs (get := fun (t : ReassignableTopicResponse45) => t.Partitions) (set := fun (t : ReassignableTopicResponse45) x => { t with Partitions := x }) (fun x hx => ReassignablePartitionResponse45.reads version x hx {}) h.Partitions) : Step _ _ _) t0
theorem ReassignableTopicResponse45.tame (version : Int16) (t0 : ReassignableTopicResponse45) : Tame (ReassignableTopicResponse45.decode version t0) :=
  ((TameStep.field tame_string)
    |>.andThen (TameStep.structs (ReassignablePartitionResponse45.tame version {})) : TameStep _) t0
theorem ReassignableTopicResponse45.calm (version : Int16) (t0 : ReassignableTopicResponse45) :
    Calm (ReassignableTopicResponse45.decode version t0) (fun _ => True) :=
  ((CalmStep.field tame_string calm_string)
    |>.andThen (CalmStep.structs (ReassignablePartitionResponse45.tame version {}) (ReassignablePartitionResponse45.calm version {})) : CalmStep _).2 t0
theorem ReassignableTopicResponse45.canon (version : Int16) (t : ReassignableTopicResponse45) (h : t.Canon version) :
    t.seen version {} = t :=
  ReassignableTopicResponse45.ext rfl (canon_structs (ReassignablePartitionResponse45.canon version) h.Partitions)
theorem ReassignableTopicResponse45.again (version : Int16) (t t0 : ReassignableTopicResponse45) :
    ReassignableTopicResponse45.wire version (t.seen version t0) = ReassignableTopicResponse45.wire version t :=
  app_congr (rfl) (again_structs (fun x => ReassignablePartitionResponse45.again version x {}) t.Partitions)
theorem ReassignableTopicResponse45.lawful : Lawful ReassignableTopicResponse45.type ReassignableTopicResponse45.layout :=
  ⟨ReassignableTopicResponse45.emits, ReassignableTopicResponse45.sized, ReassignableTopicResponse45.reads, ReassignableTopicResponse45.tame, ReassignableTopicResponse45.calm, ReassignableTopicResponse45.canon, ReassignableTopicResponse45.again⟩

theorem AlterPartitionReassignmentsResponse.emits (version : Int16) (t : AlterPartitionReassignmentsResponse) :
    Emits (AlterPartitionReassignmentsResponse.encode version t) (AlterPartitionReassignmentsResponse.wire version t) :=
  (emits_int32 t.ThrottleTimeMs)
    |>.andThen (emits_int16 t.ErrorCode)
    |>.andThen (emits_string t.ErrorMessage)
    |>.andThen (emits_structs (ReassignableTopicResponse45.emits version) t.Responses)
theorem AlterPartitionReassignmentsResponse.sized (version : Int16) (t : AlterPartitionReassignmentsResponse) :
    Sized (AlterPartitionReassignmentsResponse.size version t) (AlterPartitionReassignmentsResponse.wire version t) :=
  Grows.sized ((Grows.add (sized_int32 t.ThrottleTimeMs))
    |>.andThen (Grows.add (sized_int16 t.ErrorCode))
    |>.andThen (Grows.add (sized_string t.ErrorMessage))
    |>.andThen (Grows.structs (ReassignableTopicResponse45.sized version) t.Responses))
theorem AlterPartitionReassignmentsResponse.reads (version : Int16) (t : AlterPartitionReassignmentsResponse) (h : t.Fits version) (t0 : AlterPartitionReassignmentsResponse) :
    Reads (AlterPartitionReassignmentsResponse.decode version t0) (AlterPartitionReassignmentsResponse.wire version t) (t.seen version t0) :=
  ((Step.field (set := fun (t : AlterPartitionReassignmentsResponse) x => { t with ThrottleTimeMs := x }) (reads_int32 t.ThrottleTimeMs))
    |>.andThen (Step.field (set := fun (t : AlterPartitionReassignmentsResponse) x => { t with ErrorCode := x }) (reads_int16 t.ErrorCode))
    |>.andThen (Step.field (set := fun (t : AlterPartitionReassignmentsResponse) x => { t with ErrorMessage := x }) (reads_string h.ErrorMessage))
    |>.andThen (Step.structs (get := fun (t : AlterPartitionReassignmentsResponse) => t.Responses) (set := fun (t : AlterPartitionReassignmentsResponse) x => { t with Responses := x }) (fun x hx => ReassignableTopicResponse45.reads version x hx {}) h.Responses) : Step _ _ _) t0
theorem AlterPartitionReassignmentsResponse.tame (version : Int16) (t0 : AlterPartitionReassignmentsResponse) : Tame (AlterPartitionReassignmentsResponse.decode version t0) :=
  ((TameStep.field tame_int32)
    |>.andThen (TameStep.field tame_int16)
    |>.andThen (TameStep.field tame_string)
    |>.andThen (TameStep.structs (ReassignableTopicResponse45.tame version {})) : TameStep _) t0
theorem AlterPartitionReassignmentsResponse.calm (version : Int16) (t0 : AlterPartitionReassignmentsResponse) :
    Calm (AlterPartitionReassignmentsResponse.decode version t0) (fun _ => True) :=
  ((CalmStep.field tame_int32 calm_int32)
    |>.andThen (CalmStep.field tame_int16 calm_int16)
    |>.andThen (CalmStep.field tame_string calm_string)
    |>.andThen (CalmStep.structs (ReassignableTopicResponse45.tame version {}) (ReassignableTopicResponse45.calm version {})) : CalmStep _).2 t0
theorem AlterPartitionReassignmentsResponse.canon (version : Int16) (t : AlterPartitionReassignmentsResponse) (h : t.Canon version) :
    t.seen version {} = t :=
  AlterPartitionReassignmentsResponse.ext rfl rfl rfl (canon_structs (ReassignableTopicResponse45.canon version) h.Responses)
theorem AlterPartitionReassignmentsResponse.again (version : Int16) (t t0 : AlterPartitionReassignmentsResponse) :
    AlterPartitionReassignmentsResponse.wire version (t.seen version t0) = AlterPartitionReassignmentsResponse.wire version t :=
  app_congr (app_congr (app_congr (rfl) (rfl)) (rfl)) (again_structs (fun x => ReassignableTopicResponse45.again version x {}) t.Responses)
theorem AlterPartitionReassignmentsResponse.lawful : Lawful AlterPartitionReassignmentsResponse.type AlterPartitionReassignmentsResponse.layout :=
  ⟨AlterPartitionReassignmentsResponse.emits, AlterPartitionReassignmentsResponse.sized, AlterPartitionReassignmentsResponse.reads, AlterPartitionReassignmentsResponse.tame, AlterPartitionReassignmentsResponse.calm, AlterPartitionReassignmentsResponse.canon, AlterPartitionReassignmentsResponse.again⟩

end Kafka.Msg
