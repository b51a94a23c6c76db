import Verif.Message.StepLemmas
import Verif.Gen.Spec.ListOffset
/-!
Generated by tools/gen_messages.py: laws of the ListOffset messages.
-/
namespace Kafka.Msg

theorem ListOffsetPartition2.emits (version : Int16) (t : ListOffsetPartition2) :
    Emits (ListOffsetPartition2.encode version t) (ListOffsetPartition2.wire version t) :=
  (emits_int32 t.PartitionIndex)
    |>.andThen (Emits.onlyIf (emits_int32 t.CurrentLeaderEpoch))
    |>.andThen (emits_int64 t.Timestamp)
    |>.andThen (Emits.onlyIf (emits_int32 t.MaxNumOffsets))
theorem ListOffsetPartition2.sized (version : Int16) (t : ListOffsetPartition2) :
    Sized (ListOffsetPartition2.size version t) (ListOffsetPartition2.wire version t) :=
  Grows.sized ((Grows.add (sized_int32 t.PartitionIndex))
    |>.andThen (Grows.onlyIf (Grows.add (sized_int32 t.CurrentLeaderEpoch)))
    |>.andThen (Grows.add (sized_int64 t.Timestamp))
    |>.andThen (Grows.onlyIf (Grows.add (sized_int32 t.MaxNumOffsets))))
theorem ListOffsetPartition2.reads (version : Int16) (t : ListOffsetPartition2) (_h : t.Fits version) (t0 : ListOffsetPartition2) :
    Reads (ListOffsetPartition2.decode version t0) (ListOffsetPartition2.wire version t) (t.seen version t0) :=
  ((Step.field (set := fun (t : ListOffsetPartition2) x => { t with PartitionIndex := x }) (reads_int32 t.PartitionIndex))
    |>.andThen (Step.optField (c := version ≥ 4) (set := fun (t : ListOffsetPartition2) x => { t with CurrentLeaderEpoch := x }) (·.CurrentLeaderEpoch) (fun _ => rfl) fun _ => reads_int32 t.CurrentLeaderEpoch)
    |>.andThen (Step.field (set := fun (t : ListOffsetPartition2) x => { t with Timestamp := x }) (reads_int64 t.Timestamp))
    |>.andThen (Step.optField (c := version ≥ 0 ∧ version ≤ 0) (set := fun (t : ListOffsetPartition2) x => { t with MaxNumOffsets := x }) (·.MaxNumOffsets) (fun _ => rfl) fun _ => reads_int32 t.MaxNumOffsets) : Step _ _ _) t0
theorem ListOffsetPartition2.tame (version : Int16) (t0 : ListOffsetPartition2) : Tame (ListOffsetPartition2.decode version t0) :=
  ((TameStep.field tame_int32)
    |>.andThen (TameStep.onlyIf (TameStep.field tame_int32))
    |>.andThen (TameStep.field tame_int64)
    |>.andThen (TameStep.onlyIf (TameStep.field tame_int32)) : TameStep _) t0
theorem ListOffsetPartition2.calm (version : Int16) (t0 : ListOffsetPartition2) :
    Calm (ListOffsetPartition2.decode version t0) (fun _ => True) :=
  ((CalmStep.field tame_int32 calm_int32)
    |>.andThen (CalmStep.onlyIf (CalmStep.field tame_int32 calm_int32))
    |>.andThen (CalmStep.field tame_int64 calm_int64)
    |>.andThen (CalmStep.onlyIf (CalmStep.field tame_int32 calm_int32)) : CalmStep _).2 t0
theorem ListOffsetPartition2.canon (version : Int16) (t : ListOffsetPartition2) (h : t.Canon version) :
    t.seen version {} = t :=
  ListOffsetPartition2.ext rfl (canon_opt h.CurrentLeaderEpoch) rfl (canon_opt h.MaxNumOffsets)
theorem ListOffsetPartition2.again (version : Int16) (t t0 : ListOffsetPartition2) :
    ListOffsetPartition2.wire version (t.seen version t0) = ListOffsetPartition2.wire version t :=
  app_congr (app_congr (app_congr (rfl) (again_opt Wire.int32 t.CurrentLeaderEpoch t0.CurrentLeaderEpoch)) (rfl)) (again_opt Wire.int32 t.MaxNumOffsets t0.MaxNumOffsets)
theorem ListOffsetPartition2.lawful : Lawful ListOffsetPartition2.type ListOffsetPartition2.layout :=
  ⟨ListOffsetPartition2.emits, ListOffsetPartition2.sized, ListOffsetPartition2.reads, ListOffsetPartition2.tame, ListOffsetPartition2.calm, ListOffsetPartition2.canon, ListOffsetPartition2.again⟩

theorem ListOffsetTopic2.emits (version : Int16) (t : ListOffsetTopic2) :
    Emits (ListOffsetTopic2.encode version t) (ListOffsetTopic2.wire version t) :=
  (emits_string t.Name)
    |>.andThen (emits_structs (ListOffsetPartition2.emits version) t.Partitions)
theorem ListOffsetTopic2.sized (version : Int16) (t : ListOffsetTopic2) :
    Sized (ListOffsetTopic2.size version t) (ListOffsetTopic2.wire version t) :=
  Grows.sized ((Grows.add (sized_string t.Name))
    |>.andThen (Grows.structs (ListOffsetPartition2.sized version) t.Partitions))
theorem ListOffsetTopic2.reads (version : Int16) (t : ListOffsetTopic2) (h : t.Fits version) (t0 : ListOffsetTopic2) :
    Reads (ListOffsetTopic2.decode version t0) (ListOffsetTopic2.wire version t) (t.seen version t0) :=
  ((Step.field (set := fun (t : ListOffsetTopic2) x => { t with Name := x }) (reads_string h.Name))
    |>.andThen (Step.structs (get := fun (t : ListOffsetTopic2) => t.Partitions) (set := fun (t : ListOffsetTopic2) x => { t with Partitions := x }) (fun x hx => ListOffsetPartition2.reads version x hx {}) h.Partitions) : Step _ _ _) t0
theorem ListOffsetTopic2.tame (version : Int16) (t0 : ListOffsetTopic2) : Tame (ListOffsetTopic2.decode version t0) :=
  ((TameStep.field tame_string)
    |>.andThen (TameStep.structs (ListOffsetPartition2.tame version {})) : TameStep _) t0
theorem ListOffsetTopic2.calm (version : Int16) (t0 : ListOffsetTopic2) :
    Calm (ListOffsetTopic2.decode version t0) (fun _ => True) :=
  ((CalmStep.field tame_string calm_string)
    |>.andThen (CalmStep.structs (ListOffsetPartition2.tame version {}) (ListOffsetPartition2.calm version {})) : CalmStep _).2 t0
theorem ListOffsetTopic2.canon (version : Int16) (t : ListOffsetTopic2) (h : t.Canon version) :
    t.seen version {} = t :=
  ListOffsetTopic2.ext rfl (canon_structs (ListOffsetPartition2.canon version) h.Partitions)
theorem ListOffsetTopic2.again (version : Int16) (t t0 : ListOffsetTopic2) :
    ListOffsetTopic2.wire version (t.seen version t0) = ListOffsetTopic2.wire version t :=
  app_congr (rfl) (again_structs (fun x => ListOffsetPartition2.again version x {}) t.Partitions)
theorem ListOffsetTopic2.lawful : Lawful ListOffsetTopic2.type ListOffsetTopic2.layout :=
  ⟨ListOffsetTopic2.emits, ListOffsetTopic2.sized, ListOffsetTopic2.reads, ListOffsetTopic2.tame, ListOffsetTopic2.calm, ListOffsetTopic2.canon, ListOffsetTopic2.again⟩

theorem ListOffsetRequest.emits (version : Int16) (t : ListOffsetRequest) :
    Emits (ListOffsetRequest.encode version t) (ListOffsetRequest.wire version t) :=
  (emits_int32 t.ReplicaId)
    |>.andThen (Emits.onlyIf (emits_int8 t.IsolationLevel))
    |>.andThen (emits_structs (ListOffsetTopic2.emits version) t.Topics)
theorem ListOffsetRequest.sized (version : Int16) (t : ListOffsetRequest) :
    Sized (ListOffsetRequest.size version t) (ListOffsetRequest.wire version t) :=
  Grows.sized ((Grows.add (sized_int32 t.ReplicaId))
    |>.andThen (Grows.onlyIf (Grows.add (sized_int8 t.IsolationLevel)))
    |>.andThen (Grows.structs (ListOffsetTopic2.sized version) t.Topics))
theorem ListOffsetRequest.reads (version : Int16) (t : ListOffsetRequest) (h : t.Fits version) (t0 : ListOffsetRequest) :
    Reads (ListOffsetRequest.decode version t0) (ListOffsetRequest.wire version t) (t.seen version t0) :=
  ((Step.field (set := fun (t : ListOffsetRequest) x => { t with ReplicaId := x }) (reads_int32 t.ReplicaId))
    |>.andThen (Step.optField (c := version ≥ 2) (set := fun (t : ListOffsetRequest) x => { t with IsolationLevel := x }) (·.IsolationLevel) (fun _ => rfl) fun _ => reads_int8 t.IsolationLevel)
    |>.andThen (Step.structs (get := fun (t : ListOffsetRequest) => t.Topics) (set := fun (t : ListOffsetRequest) x => { t with Topics := x }) (fun x hx => ListOffsetTopic2.reads version x hx {}) h.Topics) : Step _ _ _) t0
theorem ListOffsetRequest.tame (version : Int16) (t0 : ListOffsetRequest) : Tame (ListOffsetRequest.decode version t0) :=
  ((TameStep.field tame_int32)
    |>.andThen (TameStep.onlyIf (TameStep.field tame_int8))
    |>.andThen (TameStep.structs (ListOffsetTopic2.tame version {})) : TameStep _) t0
theorem ListOffsetRequest.calm (version : Int16) (t0 : ListOffsetRequest) :
    Calm (ListOffsetRequest.decode version t0) (fun _ => True) :=
  ((CalmStep.field tame_int32 calm_int32)
    |>.andThen (CalmStep.onlyIf (CalmStep.field tame_int8 calm_int8))
    |>.andThen (CalmStep.structs (ListOffsetTopic2.tame version {}) (ListOffsetTopic2.calm version {})) : CalmStep _).2 t0
theorem ListOffsetRequest.canon (version : Int16) (t : ListOffsetRequest) (h : t.Canon version) :
    t.seen version {} = t :=
  ListOffsetRequest.ext rfl (canon_opt h.IsolationLevel) (canon_structs (ListOffsetTopic2.canon version) h.Topics)
theorem ListOffsetRequest.again (version : Int16) (t t0 : ListOffsetRequest) :
    ListOffsetRequest.wire version (t.seen version t0) = ListOffsetRequest.wire version t :=
  app_congr (app_congr (rfl) (again_opt Wire.int8 t.IsolationLevel t0.IsolationLevel)) (again_structs (fun x => ListOffsetTopic2.again version x {}) t.Topics)
theorem ListOffsetRequest.lawful : Lawful ListOffsetRequest.type ListOffsetRequest.layout :=
  ⟨ListOffsetRequest.emits, ListOffsetRequest.sized, ListOffsetRequest.reads, ListOffsetRequest.tame, ListOffsetRequest.calm, ListOffsetRequest.canon, ListOffsetRequest.again⟩

theorem ListOffsetPartitionResponse2.emits (version : Int16) (t : ListOffsetPartitionResponse2) :
    Emits (ListOffsetPartitionResponse2.encode version t) (ListOffsetPartitionResponse2.wire version t) :=
  (emits_int32 t.PartitionIndex)
    |>.andThen (emits_int16 t.ErrorCode)
    |>.andThen (Emits.onlyIf (emits_int64Array t.OldStyleOffsets))
    |>.andThen (Emits.onlyIf (emits_int64 t.Timestamp))
    |>.andThen (Emits.onlyIf (emits_int64 t.Offset))
    |>.andThen (Emits.onlyIf (emits_int32 t.LeaderEpoch))
theorem ListOffsetPartitionResponse2.sized (version : Int16) (t : ListOffsetPartitionResponse2) :
    Sized (ListOffsetPartitionResponse2.size version t) (ListOffsetPartitionResponse2.wire version t) :=
  Grows.sized ((Grows.add (sized_int32 t.PartitionIndex))
    |>.andThen (Grows.add (sized_int16 t.ErrorCode))
    |>.andThen (Grows.onlyIf (Grows.add (sized_int64Array t.OldStyleOffsets)))
    |>.andThen (Grows.onlyIf (Grows.add (sized_int64 t.Timestamp)))
    |>.andThen (Grows.onlyIf (Grows.add (sized_int64 t.Offset)))
    |>.andThen (Grows.onlyIf (Grows.add (sized_int32 t.LeaderEpoch))))
theorem ListOffsetPartitionResponse2.reads (version : Int16) (t : ListOffsetPartitionResponse2) (h : t.Fits version) (t0 : ListOffsetPartitionResponse2) :
    Reads (ListOffsetPartitionResponse2.decode version t0) (ListOffsetPartitionResponse2.wire version t) (t.seen version t0) :=
  ((Step.field (set := fun (t : ListOffsetPartitionResponse2) x => { t with PartitionIndex := x }) (reads_int32 t.PartitionIndex))
    |>.andThen (Step.field (set := fun (t : ListOffsetPartitionResponse2) x => { t with ErrorCode := x }) (reads_int16 t.ErrorCode))
    |>.andThen (Step.optField (c := version ≥ 0 ∧ version ≤ 0) (set := fun (t : ListOffsetPartitionResponse2) x => { t with OldStyleOffsets := x }) (·.OldStyleOffsets) (fun _ => rfl) fun hc => reads_int64Array (h.OldStyleOffsets hc))
    |>.andThen (Step.optField (c := version ≥ 1) (set := fun (t : ListOffsetPartitionResponse2) x => { t with Timestamp := x }) (·.Timestamp) (fun _ => rfl) fun _ => reads_int64 t.Timestamp)
    |>.andThen (Step.optField (c := version ≥ 1) (set := fun (t : ListOffsetPartitionResponse2) x => { t with Offset := x }) (·.Offset) (fun _ => rfl) fun _ => reads_int64 t.Offset)
    |>.andThen (Step.optField (c := version ≥ 4) (set := fun (t : ListOffsetPartitionResponse2) x => { t with LeaderEpoch := x }) (·.LeaderEpoch) (fun _ => rfl) fun _ => reads_int32 t.LeaderEpoch) : Step _ _ _) t0
theorem ListOffsetPartitionResponse2.tame (version : Int16) (t0 : ListOffsetPartitionResponse2) : Tame (ListOffsetPartitionResponse2.decode version t0) :=
  ((TameStep.field tame_int32)
    |>.andThen (TameStep.field tame_int16)
    |>.andThen (TameStep.onlyIf (TameStep.field tame_int64Array))
    |>.andThen (TameStep.onlyIf (TameStep.field tame_int64))
    |>.andThen (TameStep.onlyIf (TameStep.field tame_int64))
    |>.andThen (TameStep.onlyIf (TameStep.field tame_int32)) : TameStep _) t0
theorem ListOffsetPartitionResponse2.calm (version : Int16) (t0 : ListOffsetPartitionResponse2) :
    Calm (ListOffsetPartitionResponse2.decode version t0) (fun _ => True) :=
  ((CalmStep.field tame_int32 calm_int32)
    |>.andThen (CalmStep.field tame_int16 calm_int16)
    |>.andThen (CalmStep.onlyIf (CalmStep.field tame_int64Array calm_int64Array))
    |>.andThen (CalmStep.onlyIf (CalmStep.field tame_int64 calm_int64))
    |>.andThen (CalmStep.onlyIf (CalmStep.field tame_int64 calm_int64))
    |>.andThen (CalmStep.onlyIf (CalmStep.field tame_int32 calm_int32)) : CalmStep _).2 t0
theorem ListOffsetPartitionResponse2.canon (version : Int16) (t : ListOffsetPartitionResponse2) (h : t.Canon version) :
    t.seen version {} = t :=
  ListOffsetPartitionResponse2.ext rfl rfl (canon_opt h.OldStyleOffsets) (canon_opt h.Timestamp) (canon_opt h.Offset) (canon_opt h.LeaderEpoch)
theorem ListOffsetPartitionResponse2.again (version : Int16) (t t0 : ListOffsetPartitionResponse2) :
    ListOffsetPartitionResponse2.wire version (t.seen version t0) = ListOffsetPartitionResponse2.wire version t :=
  app_congr (app_congr (app_congr (app_congr (app_congr (rfl) (rfl)) (again_opt Wire.int64Array t.OldStyleOffsets t0.OldStyleOffsets)) (again_opt Wire.int64 t.Timestamp t0.Timestamp)) (again_opt Wire.int64 t.Offset t0.Offset)) (again_opt Wire.int32 t.LeaderEpoch t0.LeaderEpoch)
theorem ListOffsetPartitionResponse2.lawful : Lawful ListOffsetPartitionResponse2.type ListOffsetPartitionResponse2.layout :=
  ⟨ListOffsetPartitionResponse2.emits, ListOffsetPartitionResponse2.sized, ListOffsetPartitionResponse2.reads, ListOffsetPartitionResponse2.tame, ListOffsetPartitionResponse2.calm, ListOffsetPartitionResponse2.canon, ListOffsetPartitionResponse2.again⟩

theorem ListOffsetTopicResponse2.emits (version : Int16) (t : ListOffsetTopicResponse2) :
    Emits (ListOffsetTopicResponse2.encode version t) (ListOffsetTopicResponse2.wire version t) :=
  (emits_string t.Name)
    |>.andThen (emits_structs (ListOffsetPartitionResponse2.emits version) t.Partitions)
theorem ListOffsetTopicResponse2.sized (version : Int16) (t : ListOffsetTopicResponse2) :
    Sized (ListOffsetTopicResponse2.size version t) (ListOffsetTopicResponse2.wire version t) :=
  Grows.sized ((Grows.add (sized_string t.Name))
    |>.andThen (Grows.structs (ListOffsetPartitionResponse2.sized version) t.Partitions))
theorem ListOffsetTopicResponse2.reads (version : Int16) (t : ListOffsetTopicResponse2) (h : t.Fits version) (t0 : ListOffsetTopicResponse2) :
    Reads (ListOffsetTopicResponse2.decode version t0) (ListOffsetTopicResponse2.wire version t) (t.seen version t0) :=
  ((Step.field (set := fun (t : ListOffsetTopicResponse2) x => { t with Name := x }) (reads_string h.Name))
    |>.andThen (Step.structs (get := fun (t : ListOffsetTopicResponse2) => t.Partitions) (set := fun (t : ListOffsetTopicResponse2) x => { t with Partitions := x }) (fun x hx => ListOffsetPartitionResponse2.reads version x hx {}) h.Partitions) : Step _ _ _) t0
theorem ListOffsetTopicResponse2.tame (version : Int16) (t0 : ListOffsetTopicResponse2) : Tame (ListOffsetTopicResponse2.decode version t0) :=
  ((TameStep.field tame_string)
    |>.andThen (TameStep.structs (ListOffsetPartitionResponse2.tame version {})) : TameStep _) t0
theorem ListOffsetTopicResponse2.calm (version : Int16) (t0 : ListOffsetTopicResponse2) :
    Calm (ListOffsetTopicResponse2.decode version t0) (fun _ => True) :=
  ((CalmStep.field tame_string calm_string)
    |>.andThen (CalmStep.structs (ListOffsetPartitionResponse2.tame version {}) (ListOffsetPartitionResponse2.calm version {})) : CalmStep _).2 t0
theorem ListOffsetTopicResponse2.canon (version : Int16) (t : ListOffsetTopicResponse2) (h : t.Canon version) :
    t.seen version {} = t :=
  ListOffsetTopicResponse2.ext rfl (canon_structs (ListOffsetPartitionResponse2.canon version) h.Partitions)
theorem ListOffsetTopicResponse2.again (version : Int16) (t t0 : ListOffsetTopicResponse2) :
    ListOffsetTopicResponse2.wire version (t.seen version t0) = ListOffsetTopicResponse2.wire version t :=
  app_congr (rfl) (again_structs (fun x => ListOffsetPartitionResponse2.again version x {}) t.Partitions)
theorem ListOffsetTopicResponse2.lawful : Lawful ListOffsetTopicResponse2.type ListOffsetTopicResponse2.layout :=
  ⟨ListOffsetTopicResponse2.emits, ListOffsetTopicResponse2.sized, ListOffsetTopicResponse2.reads, ListOffsetTopicResponse2.tame, ListOffsetTopicResponse2.calm, ListOffsetTopicResponse2.canon, ListOffsetTopicResponse2.again⟩

theorem ListOffsetResponse.emits (version : Int16) (t : ListOffsetResponse) :
    Emits (ListOffsetResponse.encode version t) (ListOffsetResponse.wire version t) :=
  (Emits.onlyIf (emits_int32 t.ThrottleTimeMs))
    |>.andThen (emits_structs (ListOffsetTopicResponse2.emits version) t.Topics)
theorem ListOffsetResponse.sized (version : Int16) (t : ListOffsetResponse) :
    Sized (ListOffsetResponse.size version t) (ListOffsetResponse.wire version t) :=
  Grows.sized ((Grows.onlyIf (Grows.add (sized_int32 t.ThrottleTimeMs)))
    |>.andThen (Grows.structs (ListOffsetTopicResponse2.sized version) t.Topics))
theorem ListOffsetResponse.reads (version : Int16) (t : ListOffsetResponse) (h : t.Fits version) (t0 : ListOffsetResponse) :
    Reads (ListOffsetResponse.decode version t0) (ListOffsetResponse.wire version t) (t.seen version t0) :=
  ((Step.optField (c := version ≥ 2) (set := fun (t : ListOffsetResponse) x => { t with ThrottleTimeMs := x }) (·.ThrottleTimeMs) (fun _ => rfl) fun _ => reads_int32 t.ThrottleTimeMs)
    |>.andThen (Step.structs (get := fun (t : ListOffsetResponse) => t.Topics) (set := fun (t : ListOffsetResponse) x => { t with Topics := x }) (fun x hx => ListOffsetTopicResponse2.reads version x hx {}) h.Topics) : Step _ _ _) t0
theorem ListOffsetResponse.tame (version : Int16) (t0 : ListOffsetResponse) : Tame (ListOffsetResponse.decode version t0) :=
  ((TameStep.onlyIf (TameStep.field tame_int32))
    |>.andThen (TameStep.structs (ListOffsetTopicResponse2.tame version {})) : TameStep _) t0
theorem ListOffsetResponse.calm (version : Int16) (t0 : ListOffsetResponse) :
    Calm (ListOffsetResponse.decode version t0) (fun _ => True) :=
  ((CalmStep.onlyIf (CalmStep.field tame_int32 calm_int32))
    |>.andThen (CalmStep.structs (ListOffsetTopicResponse2.tame version {}) (ListOffsetTopicResponse2.calm version {})) : CalmStep _).2 t0
theorem ListOffsetResponse.canon (version : Int16) (t : ListOffsetResponse) (h : t.Canon version) :
    t.seen version {} = t :=
  ListOffsetResponse.ext (canon_opt h.ThrottleTimeMs) (canon_structs (ListOffsetTopicResponse2.canon version) h.Topics)
theorem ListOffsetResponse.again (version : Int16) (t t0 : ListOffsetResponse) :
    ListOffsetResponse.wire version (t.seen version t0) = ListOffsetResponse.wire version t :=
  app_congr (again_opt Wire.int32 t.ThrottleTimeMs t0.ThrottleTimeMs) (again_structs (fun x => ListOffsetTopicResponse2.again version x {}) t.Topics)
theorem ListOffsetResponse.lawful : Lawful ListOffsetResponse.type ListOffsetResponse.layout :=
  ⟨ListOffsetResponse.emits, ListOffsetResponse.sized, ListOffsetResponse.reads, ListOffsetResponse.tame, ListOffsetResponse.calm, ListOffsetResponse.canon, ListOffsetResponse.again⟩

end Kafka.Msg
