import Verif.Message.StepLemmas
import Verif.Gen.Spec.OffsetFetch
/-!
Generated by tools/gen_messages.py: laws of the OffsetFetch messages.
-/
namespace Kafka.Msg

theorem OffsetFetchRequestTopic9.emits (version : Int16) (t : OffsetFetchRequestTopic9) :
    Emits (OffsetFetchRequestTopic9.encode version t) (OffsetFetchRequestTopic9.wire version t) :=
  (emits_string t.Name)
    |>.andThen (emits_int32Array t.PartitionIndexes)
theorem OffsetFetchRequestTopic9.sized (version : Int16) (t : OffsetFetchRequestTopic9) :
    Sized (OffsetFetchRequestTopic9.size version t) (OffsetFetchRequestTopic9.wire version t) :=
  Grows.sized ((Grows.add (sized_string t.Name))
    |>.andThen (Grows.add (sized_int32Array t.PartitionIndexes)))
theorem OffsetFetchRequestTopic9.reads (version : Int16) (t : OffsetFetchRequestTopic9) (h : t.Fits version) (t0 : OffsetFetchRequestTopic9) :
    Reads (OffsetFetchRequestTopic9.decode version t0) (OffsetFetchRequestTopic9.wire version t) (t.seen version t0) :=
  ((Step.field (set := fun (t : OffsetFetchRequestTopic9) x => { t with Name := x }) (reads_string h.Name))
    |>.andThen (Step.field (set := fun (t : OffsetFetchRequestTopic9) x => { t with PartitionIndexes := x }) (reads_int32Array h.PartitionIndexes)) : Step _ _ _) t0
theorem OffsetFetchRequestTopic9.tame (version : Int16) (t0 : OffsetFetchRequestTopic9) : Tame (OffsetFetchRequestTopic9.decode version t0) :=
  ((TameStep.field tame_string)
    |>.andThen (TameStep.field tame_int32Array) : TameStep _) t0
theorem OffsetFetchRequestTopic9.calm (version : Int16) (t0 : OffsetFetchRequestTopic9) :
    Calm (OffsetFetchRequestTopic9.decode version t0) (fun _ => True) :=
  ((CalmStep.field tame_string calm_string)
    |>.andThen (CalmStep.field tame_int32Array calm_int32Array) : CalmStep _).2 t0
theorem OffsetFetchRequestTopic9.canon (version : Int16) (t : OffsetFetchRequestTopic9) (_h : t.Canon version) :
    t.seen version {} = t :=
  OffsetFetchRequestTopic9.ext rfl rfl
theorem OffsetFetchRequestTopic9.again (version : Int16) (t t0 : OffsetFetchRequestTopic9) :
    OffsetFetchRequestTopic9.wire version (t.seen version t0) = OffsetFetchRequestTopic9.wire version t :=
  app_congr (rfl) (rfl)
theorem OffsetFetchRequestTopic9.lawful : Lawful OffsetFetchRequestTopic9.type OffsetFetchRequestTopic9.layout :=
  ⟨OffsetFetchRequestTopic9.emits, OffsetFetchRequestTopic9.sized, OffsetFetchRequestTopic9.reads, OffsetFetchRequestTopic9.tame, OffsetFetchRequestTopic9.calm, OffsetFetchRequestTopic9.canon, OffsetFetchRequestTopic9.again⟩

theorem OffsetFetchRequest.emits (version : Int16) (t : OffsetFetchRequest) :
    Emits (OffsetFetchRequest.encode version t) (OffsetFetchRequest.wire version t) :=
  (emits_string t.GroupId)
    |>.andThen (emits_structs (OffsetFetchRequestTopic9.emits version) t.Topics)
theorem OffsetFetchRequest.sized (version : Int16) (t : OffsetFetchRequest) :
    Sized (OffsetFetchRequest.size version t) (OffsetFetchRequest.wire version t) :=
  Grows.sized ((Grows.add (sized_string t.GroupId))
    |>.andThen (Grows.structs (OffsetFetchRequestTopic9.sized version) t.Topics))
theorem OffsetFetchRequest.reads (version : Int16) (t : OffsetFetchRequest) (h : t.Fits version) (t0 : OffsetFetchRequest) :
    Reads (OffsetFetchRequest.decode version t0) (OffsetFetchRequest.wire version t) (t.seen version t0) :=
  ((Step.field (set := fun (t : OffsetFetchRequest) x => { t with GroupId := x }) (reads_string h.GroupId))
    |>.andThen (Step.structs (get := fun (t : OffsetFetchRequest) => t.Topics) (set := fun (t : OffsetFetchRequest) x => { t with Topics := x }) (fun x hx => OffsetFetchRequestTopic9.reads version x hx {}) h.Topics) : Step _ _ _) t0
theorem OffsetFetchRequest.tame (version : Int16) (t0 : OffsetFetchRequest) : Tame (OffsetFetchRequest.decode version t0) :=
  ((TameStep.field tame_string)
    |>.andThen (TameStep.structs (OffsetFetchRequestTopic9.tame version {})) : TameStep _) t0
theorem OffsetFetchRequest.calm (version : Int16) (t0 : OffsetFetchRequest) :
    Calm (OffsetFetchRequest.decode version t0) (fun _ => True) :=
  ((CalmStep.field tame_string calm_string)
    |>.andThen (CalmStep.structs (OffsetFetchRequestTopic9.tame version {}) (OffsetFetchRequestTopic9.calm version {})) : CalmStep _).2 t0
theorem OffsetFetchRequest.canon (version : Int16) (t : OffsetFetchRequest) (h : t.Canon version) :
    t.seen version {} = t :=
  OffsetFetchRequest.ext rfl (canon_structs (OffsetFetchRequestTopic9.canon version) h.Topics)
theorem OffsetFetchRequest.again (version : Int16) (t t0 : OffsetFetchRequest) :
    OffsetFetchRequest.wire version (t.seen version t0) = OffsetFetchRequest.wire version t :=
  app_congr (rfl) (again_structs (fun x => OffsetFetchRequestTopic9.again version x {}) t.Topics)
theorem OffsetFetchRequest.lawful : Lawful OffsetFetchRequest.type OffsetFetchRequest.layout :=
  ⟨OffsetFetchRequest.emits, OffsetFetchRequest.sized, OffsetFetchRequest.reads, OffsetFetchRequest.tame, OffsetFetchRequest.calm, OffsetFetchRequest.canon, OffsetFetchRequest.again⟩

theorem OffsetFetchResponsePartition9.emits (version : Int16) (t : OffsetFetchResponsePartition9) :
    Emits (OffsetFetchResponsePartition9.encode version t) (OffsetFetchResponsePartition9.wire version t) :=
  (emits_int32 t.PartitionIndex)
    |>.andThen (emits_int64 t.CommittedOffset)
    |>.andThen (Emits.onlyIf (emits_int32 t.CommittedLeaderEpoch))
    |>.andThen (emits_string t.Metadata)
    |>.andThen (emits_int16 t.ErrorCode)
theorem OffsetFetchResponsePartition9.sized (version : Int16) (t : OffsetFetchResponsePartition9) :
    Sized (OffsetFetchResponsePartition9.size version t) (OffsetFetchResponsePartition9.wire version t) :=
  Grows.sized ((Grows.add (sized_int32 t.PartitionIndex))
    |>.andThen (Grows.add (sized_int64 t.CommittedOffset))
    |>.andThen (Grows.onlyIf (Grows.add (sized_int32 t.CommittedLeaderEpoch)))
    |>.andThen (Grows.add (sized_string t.Metadata))
    |>.andThen (Grows.add (sized_int16 t.ErrorCode)))
theorem OffsetFetchResponsePartition9.reads (version : Int16) (t : OffsetFetchResponsePartition9) (h : t.Fits version) (t0 : OffsetFetchResponsePartition9) :
    Reads (OffsetFetchResponsePartition9.decode version t0) (OffsetFetchResponsePartition9.wire version t) (t.seen version t0) :=
  ((Step.field (set := fun (t : OffsetFetchResponsePartition9) x => { t with PartitionIndex := x }) (reads_int32 t.PartitionIndex))
    |>.andThen (Step.field (set := fun (t : OffsetFetchResponsePartition9) x => { t with CommittedOffset := x }) (reads_int64 t.CommittedOffset))
    |>.andThen (Step.optField (c := version ≥ 5) (set := fun (t : OffsetFetchResponsePartition9) x => { t with CommittedLeaderEpoch := x }) (·.CommittedLeaderEpoch) (fun _ => rfl) fun _ => reads_int32 t.CommittedLeaderEpoch)
    |>.andThen (Step.field (set := fun (t : OffsetFetchResponsePartition9) x => { t with Metadata := x }) (reads_string h.Metadata))
    |>.andThen (Step.field (set := fun (t : OffsetFetchResponsePartition9) x => { t with ErrorCode := x }) (reads_int16 t.ErrorCode)) : Step _ _ _) t0
theorem OffsetFetchResponsePartition9.tame (version : Int16) (t0 : OffsetFetchResponsePartition9) : Tame (OffsetFetchResponsePartition9.decode version t0) :=
  ((TameStep.field tame_int32)
    |>.andThen (TameStep.field tame_int64)
    |>.andThen (TameStep.onlyIf (TameStep.field tame_int32))
    |>.andThen (TameStep.field tame_string)
    |>.andThen (TameStep.field tame_int16) : TameStep _) t0
theorem OffsetFetchResponsePartition9.calm (version : Int16) (t0 : OffsetFetchResponsePartition9) :
    Calm (OffsetFetchResponsePartition9.decode version t0) (fun _ => True) :=
  ((CalmStep.field tame_int32 calm_int32)
    |>.andThen (CalmStep.field tame_int64 calm_int64)
    |>.andThen (CalmStep.onlyIf (CalmStep.field tame_int32 calm_int32))
    |>.andThen (CalmStep.field tame_string calm_string)
    |>.andThen (CalmStep.field tame_int16 calm_int16) : CalmStep _).2 t0
theorem OffsetFetchResponsePartition9.canon (version : Int16) (t : OffsetFetchResponsePartition9) (h : t.Canon version) :
    t.seen version {} = t :=
  OffsetFetchResponsePartition9.ext rfl rfl (canon_opt h.CommittedLeaderEpoch) rfl rfl
theorem OffsetFetchResponsePartition9.again (version : Int16) (t t0 : OffsetFetchResponsePartition9) :
    OffsetFetchResponsePartition9.wire version (t.seen version t0) = OffsetFetchResponsePartition9.wire version t :=
  app_congr (app_congr (app_congr (app_congr (rfl) (rfl)) (again_opt Wire.int32 t.CommittedLeaderEpoch t0.CommittedLeaderEpoch)) (rfl)) (rfl)
theorem OffsetFetchResponsePartition9.lawful : Lawful OffsetFetchResponsePartition9.type OffsetFetchResponsePartition9.layout :=
  ⟨OffsetFetchResponsePartition9.emits, OffsetFetchResponsePartition9.sized, OffsetFetchResponsePartition9.reads, OffsetFetchResponsePartition9.tame, OffsetFetchResponsePartition9.calm, OffsetFetchResponsePartition9.canon, OffsetFetchResponsePartition9.again⟩

theorem OffsetFetchResponseTopic9.emits (version : Int16) (t : OffsetFetchResponseTopic9) :
    Emits (OffsetFetchResponseTopic9.encode version t) (OffsetFetchResponseTopic9.wire version t) :=
  (emits_string t.Name)
    |>.andThen (emits_structs (OffsetFetchResponsePartition9.emits version) t.Partitions)
theorem OffsetFetchResponseTopic9.sized (version : Int16) (t : OffsetFetchResponseTopic9) :
    Sized (OffsetFetchResponseTopic9.size version t) (OffsetFetchResponseTopic9.wire version t) :=
  Grows.sized ((Grows.add (sized_string t.Name))
    |>.andThen (Grows.structs (OffsetFetchResponsePartition9.sized version) t.Partitions))
theorem OffsetFetchResponseTopic9.reads (version : Int16) (t : OffsetFetchResponseTopic9) (h : t.Fits version) (t0 : OffsetFetchResponseTopic9) :
    Reads (OffsetFetchResponseTopic9.decode version t0) (OffsetFetchResponseTopic9.wire version t) (t.seen version t0) :=
  ((Step.field (set := fun (t : OffsetFetchResponseTopic9) x => { t with Name := x }) (reads_string h.Name))
    |>.andThen (Step.structs (get := fun (t : OffsetFetchResponseTopic9) => t.Partitions) (set := fun (t : OffsetFetchResponseTopic9) x => { t with Partitions := x }) (fun x hx => OffsetFetchResponsePartition9.reads version x hx {}) h.Partitions) : Step _ _ _) t0
theorem OffsetFetchResponseTopic9.tame (version : Int16) (t0 : OffsetFetchResponseTopic9) : Tame (OffsetFetchResponseTopic9.decode version t0) :=
  ((TameStep.field tame_string)
    |>.andThen (TameStep.structs (OffsetFetchResponsePartition9.tame version {})) : TameStep _) t0
theorem OffsetFetchResponseTopic9.calm (version : Int16) (t0 : OffsetFetchResponseTopic9) :
    Calm (OffsetFetchResponseTopic9.decode version t0) (fun _ => True) :=
  ((CalmStep.field tame_string calm_string)
    |>.andThen (CalmStep.structs (OffsetFetchResponsePartition9.tame version {}) (OffsetFetchResponsePartition9.calm version {})) : CalmStep _).2 t0
theorem OffsetFetchResponseTopic9.canon (version : Int16) (t : OffsetFetchResponseTopic9) (h : t.Canon version) :
    t.seen version {} = t :=
  OffsetFetchResponseTopic9.ext rfl (canon_structs (OffsetFetchResponsePartition9.canon version) h.Partitions)
theorem OffsetFetchResponseTopic9.again (version : Int16) (t t0 : OffsetFetchResponseTopic9) :
    OffsetFetchResponseTopic9.wire version (t.seen version t0) = OffsetFetchResponseTopic9.wire version t :=
  app_congr (rfl) (again_structs (fun x => OffsetFetchResponsePartition9.again version x {}) t.Partitions)
theorem OffsetFetchResponseTopic9.lawful : Lawful OffsetFetchResponseTopic9.type OffsetFetchResponseTopic9.layout :=
  ⟨OffsetFetchResponseTopic9.emits, OffsetFetchResponseTopic9.sized, OffsetFetchResponseTopic9.reads, OffsetFetchResponseTopic9.tame, OffsetFetchResponseTopic9.calm, OffsetFetchResponseTopic9.canon, OffsetFetchResponseTopic9.again⟩

theorem OffsetFetchResponse.emits (version : Int16) (t : OffsetFetchResponse) :
    Emits (OffsetFetchResponse.encode version t) (OffsetFetchResponse.wire version t) :=
  (Emits.onlyIf (emits_int32 t.ThrottleTimeMs))
    |>.andThen (emits_structs (OffsetFetchResponseTopic9.emits version) t.Topics)
    |>.andThen (Emits.onlyIf (emits_int16 t.ErrorCode))
theorem OffsetFetchResponse.sized (version : Int16) (t : OffsetFetchResponse) :
    Sized (OffsetFetchResponse.size version t) (OffsetFetchResponse.wire version t) :=
  Grows.sized ((Grows.onlyIf (Grows.add (sized_int32 t.ThrottleTimeMs)))
    |>.andThen (Grows.structs (OffsetFetchResponseTopic9.sized version) t.Topics)
    |>.andThen (Grows.onlyIf (Grows.add (sized_int16 t.ErrorCode))))
theorem OffsetFetchResponse.reads (version : Int16) (t : OffsetFetchResponse) (h : t.Fits version) (t0 : OffsetFetchResponse) :
    Reads (OffsetFetchResponse.decode version t0) (OffsetFetchResponse.wire version t) (t.seen version t0) :=
  ((Step.optField (c := version ≥ 3) (set := fun (t : OffsetFetchResponse) x => { t with ThrottleTimeMs := x }) (·.ThrottleTimeMs) (fun _ => rfl) fun _ => reads_int32 t.ThrottleTimeMs)
    |>.andThen (Step.structs (get := fun (t : OffsetFetchResponse) => t.Topics) (set := fun (t : OffsetFetchResponse) x => { t with Topics := x }) (fun x hx => OffsetFetchResponseTopic9.reads version x hx {}) h.Topics)
    |>.andThen (Step.optField (c := version ≥ 2) (set := fun (t : OffsetFetchResponse) x => { t with ErrorCode := x }) (·.ErrorCode) (fun _ => rfl) fun _ => reads_int16 t.ErrorCode) : Step _ _ _) t0
theorem OffsetFetchResponse.tame (version : Int16) (t0 : OffsetFetchResponse) : Tame (OffsetFetchResponse.decode version t0) :=
  ((TameStep.onlyIf (TameStep.field tame_int32))
    |>.andThen (TameStep.structs (OffsetFetchResponseTopic9.tame version {}))
    |>.andThen (TameStep.onlyIf (TameStep.field tame_int16)) : TameStep _) t0
theorem OffsetFetchResponse.calm (version : Int16) (t0 : OffsetFetchResponse) :
    Calm (OffsetFetchResponse.decode version t0) (fun _ => True) :=
  ((CalmStep.onlyIf (CalmStep.field tame_int32 calm_int32))
    |>.andThen (CalmStep.structs (OffsetFetchResponseTopic9.tame version {}) (OffsetFetchResponseTopic9.calm version {}))
    |>.andThen (CalmStep.onlyIf (CalmStep.field tame_int16 calm_int16)) : CalmStep _).2 t0
theorem OffsetFetchResponse.canon (version : Int16) (t : OffsetFetchResponse) (h : t.Canon version) :
    t.seen version {} = t :=
  OffsetFetchResponse.ext (canon_opt h.ThrottleTimeMs) (canon_structs (OffsetFetchResponseTopic9.canon version) h.Topics) (canon_opt h.ErrorCode)
theorem OffsetFetchResponse.again (version : Int16) (t t0 : OffsetFetchResponse) :
    OffsetFetchResponse.wire version (t.seen version t0) = OffsetFetchResponse.wire version t :=
  app_congr (app_congr (again_opt Wire.int32 t.ThrottleTimeMs t0.ThrottleTimeMs) (again_structs (fun x => OffsetFetchResponseTopic9.again version x {}) t.Topics)) (again_opt Wire.int16 t.ErrorCode t0.ErrorCode)
theorem OffsetFetchResponse.lawful : Lawful OffsetFetchResponse.type OffsetFetchResponse.layout :=
  ⟨OffsetFetchResponse.emits, OffsetFetchResponse.sized, OffsetFetchResponse.reads, OffsetFetchResponse.tame, OffsetFetchResponse.calm, OffsetFetchResponse.canon, OffsetFetchResponse.again⟩

end Kafka.Msg
