import Verif.Message.StepLemmas
import Verif.Gen.Spec.ListPartitionReassignments
/-!
Generated by tools/gen_messages.py: laws of the ListPartitionReassignments messages.
-/
namespace Kafka.Msg

theorem ListPartitionReassignmentsTopics46.emits (version : Int16) (t : ListPartitionReassignmentsTopics46) :
    Emits (ListPartitionReassignmentsTopics46.encode version t) (ListPartitionReassignmentsTopics46.wire version t) :=
  (emits_string t.Name)
    |>.andThen (emits_int32Array t.PartitionIndexes)
theorem ListPartitionReassignmentsTopics46.sized (version : Int16) (t : ListPartitionReassignmentsTopics46) :
    Sized (ListPartitionReassignmentsTopics46.size version t) (ListPartitionReassignmentsTopics46.wire version t) :=
  Grows.sized ((Grows.add (sized_string t.Name))
    |>.andThen (Grows.add (sized_int32Array t.PartitionIndexes)))
theorem ListPartitionReassignmentsTopics46.reads (version : Int16) (t : ListPartitionReassignmentsTopics46) (h : t.Fits version) (t0 : ListPartitionReassignmentsTopics46) :
    Reads (ListPartitionReassignmentsTopics46.decode version t0) (ListPartitionReassignmentsTopics46.wire version t) (t.seen version t0) :=
  ((Step.field (set := fun (t : ListPartitionReassignmentsTopics46) x => { t with Name := x }) (reads_string h.Name))
    |>.andThen (Step.field (set := fun (t : ListPartitionReassignmentsTopics46) x => { t with PartitionIndexes := x }) (reads_int32Array h.PartitionIndexes)) : Step _ _ _) t0
theorem ListPartitionReassignmentsTopics46.tame (version : Int16) (t0 : ListPartitionReassignmentsTopics46) : Tame (ListPartitionReassignmentsTopics46.decode version t0) :=
  ((TameStep.field tame_string)
    |>.andThen (TameStep.field tame_int32Array) : TameStep _) t0
theorem ListPartitionReassignmentsTopics46.calm (version : Int16) (t0 : ListPartitionReassignmentsTopics46) :
    Calm (ListPartitionReassignmentsTopics46.decode version t0) (fun _ => True) :=
  ((CalmStep.field tame_string calm_string)
    |>.andThen (CalmStep.field tame_int32Array calm_int32Array) : CalmStep _).2 t0
theorem ListPartitionReassignmentsTopics46.canon (version : Int16) (t : ListPartitionReassignmentsTopics46) (_h : t.Canon version) :
    t.seen version {} = t :=
  ListPartitionReassignmentsTopics46.ext rfl rfl
theorem ListPartitionReassignmentsTopics46.again (version : Int16) (t t0 : ListPartitionReassignmentsTopics46) :
    ListPartitionReassignmentsTopics46.wire version (t.seen version t0) = ListPartitionReassignmentsTopics46.wire version t :=
  app_congr (rfl) (rfl)
theorem ListPartitionReassignmentsTopics46.lawful : Lawful ListPartitionReassignmentsTopics46.type ListPartitionReassignmentsTopics46.layout :=
  ⟨ListPartitionReassignmentsTopics46.emits, ListPartitionReassignmentsTopics46.sized, ListPartitionReassignmentsTopics46.reads, ListPartitionReassignmentsTopics46.tame, ListPartitionReassignmentsTopics46.calm, ListPartitionReassignmentsTopics46.canon, ListPartitionReassignmentsTopics46.again⟩

theorem ListPartitionReassignmentsRequest.emits (version : Int16) (t : ListPartitionReassignmentsRequest) :
    Emits (ListPartitionReassignmentsRequest.encode version t) (ListPartitionReassignmentsRequest.wire version t) :=
  (emits_int32 t.TimeoutMs)
    |>.andThen (emits_structs (ListPartitionReassignmentsTopics46.emits version) t.Topics)
theorem ListPartitionReassignmentsRequest.sized (version : Int16) (t : ListPartitionReassignmentsRequest) :
    Sized (ListPartitionReassignmentsRequest.size version t) (ListPartitionReassignmentsRequest.wire version t) :=
  Grows.sized ((Grows.add (sized_int32 t.TimeoutMs))
    |>.andThen (Grows.structs (ListPartitionReassignmentsTopics46.sized version) t.Topics))
theorem ListPartitionReassignmentsRequest.reads (version : Int16) (t : ListPartitionReassignmentsRequest) (h : t.Fits version) (t0 : ListPartitionReassignmentsRequest) :
    Reads (ListPartitionReassignmentsRequest.decode version t0) (ListPartitionReassignmentsRequest.wire version t) (t.seen version t0) :=
  ((Step.field (set := fun (t : ListPartitionReassignmentsRequest) x => { t with TimeoutMs := x }) (reads_int32 t.TimeoutMs))
    |>.andThen (Step.structs (get := fun (t : ListPartitionReassignmentsRequest) => t.Topics) (set := fun (t : ListPartitionReassignmentsRequest) x => { t with Topics := x }) (fun x hx => ListPartitionReassignmentsTopics46.reads version x hx {}) h.Topics) : Step _ _ _) t0
theorem ListPartitionReassignmentsRequest.tame (version : Int16) (t0 : ListPartitionReassignmentsRequest) : Tame (ListPartitionReassignmentsRequest.decode version t0) :=
  ((TameStep.field tame_int32)
    |>.andThen (TameStep.structs (ListPartitionReassignmentsTopics46.tame version {})) : TameStep _) t0
theorem ListPartitionReassignmentsRequest.calm (version : Int16) (t0 : ListPartitionReassignmentsRequest) :
    Calm (ListPartitionReassignmentsRequest.decode version t0) (fun _ => True) :=
  ((CalmStep.field tame_int32 calm_int32)
    |>.andThen (CalmStep.structs (ListPartitionReassignmentsTopics46.tame version {}) (ListPartitionReassignmentsTopics46.calm version {})) : CalmStep _).2 t0
theorem ListPartitionReassignmentsRequest.canon (version : Int16) (t : ListPartitionReassignmentsRequest) (h : t.Canon version) :
    t.seen version {} = t :=
  ListPartitionReassignmentsRequest.ext rfl (canon_structs (ListPartitionReassignmentsTopics46.canon version) h.Topics)
theorem ListPartitionReassignmentsRequest.again (version : Int16) (t t0 : ListPartitionReassignmentsRequest) :
    ListPartitionReassignmentsRequest.wire version (t.seen version t0) = ListPartitionReassignmentsRequest.wire version t :=
  app_congr (rfl) (again_structs (fun x => ListPartitionReassignmentsTopics46.again version x {}) t.Topics)
theorem ListPartitionReassignmentsRequest.lawful : Lawful ListPartitionReassignmentsRequest.type ListPartitionReassignmentsRequest.layout :=
  ⟨ListPartitionReassignmentsRequest.emits, ListPartitionReassignmentsRequest.sized, ListPartitionReassignmentsRequest.reads, ListPartitionReassignmentsRequest.tame, ListPartitionReassignmentsRequest.calm, ListPartitionReassignmentsRequest.canon, ListPartitionReassignmentsRequest.again⟩

theorem OngoingPartitionReassignment46.emits (version : Int16) (t : OngoingPartitionReassignment46) :
    Emits (OngoingPartitionReassignment46.encode version t) (OngoingPartitionReassignment46.wire version t) :=
  (emits_int32 t.PartitionIndex)
    |>.andThen (emits_int32Array t.Replicas)
    |>.andThen (emits_int32Array t.AddingReplicas)
    |>.andThen (emits_int32Array t.RemovingReplicas)
theorem OngoingPartitionReassignment46.sized (version : Int16) (t : OngoingPartitionReassignment46) :
    Sized (OngoingPartitionReassignment46.size version t) (OngoingPartitionReassignment46.wire version t) :=
  Grows.sized ((Grows.add (sized_int32 t.PartitionIndex))
    |>.andThen (Grows.add (sized_int32Array t.Replicas))
    |>.andThen (Grows.add (sized_int32Array t.AddingReplicas))
    |>.andThen (Grows.add (sized_int32Array t.RemovingReplicas)))
theorem OngoingPartitionReassignment46.reads (version : Int16) (t : OngoingPartitionReassignment46) (h : t.Fits version) (t0 : OngoingPartitionReassignment46) :
    Reads (OngoingPartitionReassignment46.decode version t0) (OngoingPartitionReassignment46.wire version t) (t.seen version t0) :=
  ((Step.field (set := fun (t : OngoingPartitionReassignment46) x => { t with PartitionIndex := x }) (reads_int32 t.PartitionIndex))
    |>.andThen (Step.field (set := fun (t : OngoingPartitionReassignment46) x => { t with Replicas := x }) (reads_int32Array h.Replicas))
    |>.andThen (Step.field (set := fun (t : OngoingPartitionReassignment46) x => { t with AddingReplicas := x }) (reads_int32Array h.AddingReplicas))
    |>.andThen (Step.field (set := fun (t : OngoingPartitionReassignment46) x => { t with RemovingReplicas := x }) (reads_int32Array h.RemovingReplicas)) : Step _ _ _) t0
theorem OngoingPartitionReassignment46.tame (version : Int16) (t0 : OngoingPartitionReassignment46) : Tame (OngoingPartitionReassignment46.decode version t0) :=
  ((TameStep.field tame_int32)
    |>.andThen (TameStep.field tame_int32Array)
    |>.andThen (TameStep.field tame_int32Array)
    |>.andThen (TameStep.field tame_int32Array) : TameStep _) t0
theorem OngoingPartitionReassignment46.calm (version : Int16) (t0 : OngoingPartitionReassignment46) :
    Calm (OngoingPartitionReassignment46.decode version t0) (fun _ => True) :=
  ((CalmStep.field tame_int32 calm_int32)
    |>.andThen (CalmStep.field tame_int32Array calm_int32Array)
    |>.andThen (CalmStep.field tame_int32Array calm_int32Array)
    |>.andThen (CalmStep.field tame_int32Array calm_int32Array) : CalmStep _).2 t0
theorem OngoingPartitionReassignment46.canon (version : Int16) (t : OngoingPartitionReassignment46) (_h : t.Canon version) :
    t.seen version {} = t :=
  OngoingPartitionReassignment46.ext rfl rfl rfl rfl
theorem OngoingPartitionReassignment46.again (version : Int16) (t t0 : OngoingPartitionReassignment46) :
    OngoingPartitionReassignment46.wire version (t.seen version t0) = OngoingPartitionReassignment46.wire version t :=
  app_congr (app_congr (app_congr (rfl) (rfl)) (rfl)) (rfl)
theorem OngoingPartitionReassignment46.lawful : Lawful OngoingPartitionReassignment46.type OngoingPartitionReassignment46.layout :=
  ⟨OngoingPartitionReassignment46.emits, OngoingPartitionReassignment46.sized, OngoingPartitionReassignment46.reads, OngoingPartitionReassignment46.tame, OngoingPartitionReassignment46.calm, OngoingPartitionReassignment46.canon, OngoingPartitionReassignment46.again⟩

theorem OngoingTopicReassignment46.emits (version : Int16) (t : OngoingTopicReassignment46) :
    Emits (OngoingTopicReassignment46.encode version t) (OngoingTopicReassignment46.wire version t) :=
  (emits_string t.Name)
    |>.andThen (emits_structs (OngoingPartitionReassignment46.emits version) t.Partitions)
theorem OngoingTopicReassignment46.sized (version : Int16) (t : OngoingTopicReassignment46) :
    Sized (OngoingTopicReassignment46.size version t) (OngoingTopicReassignment46.wire version t) :=
  Grows.sized ((Grows.add (sized_string t.Name))
    |>.andThen (Grows.structs (OngoingPartitionReassignment46.sized version) t.Partitions))
theorem OngoingTopicReassignment46.reads (version : Int16) (t : OngoingTopicReassignment46) (h : t.Fits version) (t0 : OngoingTopicReassignment46) :
    Reads (OngoingTopicReassignment46.decode version t0) (OngoingTopicReassignment46.wire version t) (t.seen version t0) :=
  ((Step.field (set := fun (t : OngoingTopicReassignment46) x => { t with Name := x }) (reads_string h.Name))
    |>.andThen (Step.structs (get := fun (t : OngoingTopicReassignment46) => t.Partitions) (set := fun (t : OngoingTopicReassignment46) x => { t with Partitions := x }) (fun x hx => OngoingPartitionReassignment46.reads version x hx {}) h.Partitions) : Step _ _ _) t0
theorem OngoingTopicReassignment46.tame (version : Int16) (t0 : OngoingTopicReassignment46) : Tame (OngoingTopicReassignment46.decode version t0) :=
  ((TameStep.field tame_string)
    |>.andThen (TameStep.structs (OngoingPartitionReassignment46.tame version {})) : TameStep _) t0
theorem OngoingTopicReassignment46.calm (version : Int16) (t0 : OngoingTopicReassignment46) :
    Calm (OngoingTopicReassignment46.decode version t0) (fun _ => True) :=
  ((CalmStep.field tame_string calm_string)
    |>.andThen (CalmStep.structs (OngoingPartitionReassignment46.tame version {}) (OngoingPartitionReassignment46.calm version {})) : CalmStep _).2 t0
theorem OngoingTopicReassignment46.canon (version : Int16) (t : OngoingTopicReassignment46) (h : t.Canon version) :
    t.seen version {} = t :=
  OngoingTopicReassignment46.ext rfl (canon_structs (OngoingPartitionReassignment46.canon version) h.Partitions)
theorem OngoingTopicReassignment46.again (version : Int16) (t t0 : OngoingTopicReassignment46) :
    OngoingTopicReassignment46.wire version (t.seen version t0) = OngoingTopicReassignment46.wire version t :=
  app_congr (rfl) (again_structs (fun x => OngoingPartitionReassignment46.again version x {}) t.Partitions)
theorem OngoingTopicReassignment46.lawful : Lawful OngoingTopicReassignment46.type OngoingTopicReassignment46.layout :=
  ⟨OngoingTopicReassignment46.emits, OngoingTopicReassignment46.sized, OngoingTopicReassignment46.reads, OngoingTopicReassignment46.tame, OngoingTopicReassignment46.calm, OngoingTopicReassignment46.canon, OngoingTopicReassignment46.again⟩

theorem ListPartitionReassignmentsResponse.emits (version : Int16) (t : ListPartitionReassignmentsResponse) :
    Emits (ListPartitionReassignmentsResponse.encode version t) (ListPartitionReassignmentsResponse.wire version t) :=
  (emits_int32 t.ThrottleTimeMs)
    |>.andThen (emits_int16 t.ErrorCode)
    |>.andThen (emits_string t.ErrorMessage)
    |>.andThen (emits_structs (OngoingTopicReassignment46.emits version) t.Topics)
theorem ListPartitionReassignmentsResponse.sized (version : Int16) (t : ListPartitionReassignmentsResponse) :
    Sized (ListPartitionReassignmentsResponse.size version t) (ListPartitionReassignmentsResponse.wire version t) :=
  Grows.sized ((Grows.add (sized_int32 t.ThrottleTimeMs))
    |>.andThen (Grows.add (sized_int16 t.ErrorCode))
    |>.andThen (Grows.add (sized_string t.ErrorMessage))
    |>.andThen (Grows.structs (OngoingTopicReassignment46.sized version) t.Topics))
theorem ListPartitionReassignmentsResponse.reads (version : Int16) (t : ListPartitionReassignmentsResponse) (h : t.Fits version) (t0 : ListPartitionReassignmentsResponse) :
    Reads (ListPartitionReassignmentsResponse.decode version t0) (ListPartitionReassignmentsResponse.wire version t) (t.seen version t0) :=
  ((Step.field (set := fun (t : ListPartitionReassignmentsResponse) x => { t with ThrottleTimeMs := x }) (reads_int32 t.ThrottleTimeMs))
    |>.andThen (Step.field (set := fun (t : ListPartitionReassignmentsResponse) x => { t with ErrorCode := x }) (reads_int16 t.ErrorCode))
    |>.andThen (Step.field (set := fun (t : ListPartitionReassignmentsResponse) x => { t with ErrorMessage := x }) (reads_string h.ErrorMessage))
    |>.andThen (Step.structs (get := fun (t : ListPartitionReassignmentsResponse) => t.Topics) (set := fun (t : ListPartitionReassignmentsResponse) x => { t with Topics := x }) (fun x hx => OngoingTopicReassignment46.reads version x hx {}) h.Topics) : Step _ _ _) t0
theorem ListPartitionReassignmentsResponse.tame (version : Int16) (t0 : ListPartitionReassignmentsResponse) : Tame (ListPartitionReassignmentsResponse.decode version t0) :=
  ((TameStep.field tame_int32)
    |>.andThen (TameStep.field tame_int16)
    |>.andThen (TameStep.field tame_string)
    |>.andThen (TameStep.structs (OngoingTopicReassignment46.tame version {})) : TameStep _) t0
theorem ListPartitionReassignmentsResponse.calm (version : Int16) (t0 : ListPartitionReassignmentsResponse) :
    Calm (ListPartitionReassignmentsResponse.decode version t0) (fun _ => True) :=
  ((CalmStep.field tame_int32 calm_int32)
    |>.andThen (CalmStep.field tame_int16 calm_int16)
    |>.andThen (CalmStep.field tame_string calm_string)
    |>.andThen (CalmStep.structs (OngoingTopicReassignment46.tame version {}) (OngoingTopicReassignment46.calm version {})) : CalmStep _).2 t0
theorem ListPartitionReassignmentsResponse.canon (version : Int16) (t : ListPartitionReassignmentsResponse) (h : t.Canon version) :
    t.seen version {} = t :=
  ListPartitionReassignmentsResponse.ext rfl rfl rfl (canon_structs (OngoingTopicReassignment46.canon version) h.Topics)
theorem ListPartitionReassignmentsResponse.again (version : Int16) (t t0 : ListPartitionReassignmentsResponse) :
    ListPartitionReassignmentsResponse.wire version (t.seen version t0) = ListPartitionReassignmentsResponse.wire version t :=
  app_congr (app_congr (app_congr (rfl) (rfl)) (rfl)) (again_structs (fun x => OngoingTopicReassignment46.again version x {}) t.Topics)
theorem ListPartitionReassignmentsResponse.lawful : Lawful ListPartitionReassignmentsResponse.type ListPartitionReassignmentsResponse.layout :=
  ⟨ListPartitionReassignmentsResponse.emits, ListPartitionReassignmentsResponse.sized, ListPartitionReassignmentsResponse.reads, ListPartitionReassignmentsResponse.tame, ListPartitionReassignmentsResponse.calm, ListPartitionReassignmentsResponse.canon, ListPartitionReassignmentsResponse.again⟩

end Kafka.Msg
