import Verif.Message.StepLemmas
import Verif.Gen.Spec.WriteTxnMarkers
/-!
Generated by tools/gen_messages.py: laws of the WriteTxnMarkers messages.
-/
namespace Kafka.Msg

theorem WritableTxnMarkerTopic27.emits (version : Int16) (t : WritableTxnMarkerTopic27) :
    Emits (WritableTxnMarkerTopic27.encode version t) (WritableTxnMarkerTopic27.wire version t) :=
  (emits_string t.Name)
    |>.andThen (emits_int32Array t.PartitionIndexes)
theorem WritableTxnMarkerTopic27.sized (version : Int16) (t : WritableTxnMarkerTopic27) :
    Sized (WritableTxnMarkerTopic27.size version t) (WritableTxnMarkerTopic27.wire version t) :=
  Grows.sized ((Grows.add (sized_string t.Name))
    |>.andThen (Grows.add (sized_int32Array t.PartitionIndexes)))
theorem WritableTxnMarkerTopic27.reads (version : Int16) (t : WritableTxnMarkerTopic27) (h : t.Fits version) (t0 : WritableTxnMarkerTopic27) :
    Reads (WritableTxnMarkerTopic27.decode version t0) (WritableTxnMarkerTopic27.wire version t) (t.seen version t0) :=
  ((Step.field (set := fun (t : WritableTxnMarkerTopic27) x => { t with Name := x }) (reads_string h.Name))
    |>.andThen (Step.field (set := fun (t : WritableTxnMarkerTopic27) x => { t with PartitionIndexes := x }) (reads_int32Array h.PartitionIndexes)) : Step _ _ _) t0
theorem WritableTxnMarkerTopic27.tame (version : Int16) (t0 : WritableTxnMarkerTopic27) : Tame (WritableTxnMarkerTopic27.decode version t0) :=
  ((TameStep.field tame_string)
    |>.andThen (TameStep.field tame_int32Array) : TameStep _) t0
theorem WritableTxnMarkerTopic27.calm (version : Int16) (t0 : WritableTxnMarkerTopic27) :
    Calm (WritableTxnMarkerTopic27.decode version t0) (fun _ => True) :=
  ((CalmStep.field tame_string calm_string)
    |>.andThen (CalmStep.field tame_int32Array calm_int32Array) : CalmStep _).2 t0
theorem WritableTxnMarkerTopic27.canon (version : Int16) (t : WritableTxnMarkerTopic27) (_h : t.Canon version) :
    t.seen version {} = t :=
  WritableTxnMarkerTopic27.ext rfl rfl
theorem WritableTxnMarkerTopic27.again (version : Int16) (t t0 : WritableTxnMarkerTopic27) :
    WritableTxnMarkerTopic27.wire version (t.seen version t0) = WritableTxnMarkerTopic27.wire version t :=
  app_congr (rfl) (rfl)
theorem WritableTxnMarkerTopic27.lawful : Lawful WritableTxnMarkerTopic27.type WritableTxnMarkerTopic27.layout :=
  ⟨WritableTxnMarkerTopic27.emits, WritableTxnMarkerTopic27.sized, WritableTxnMarkerTopic27.reads, WritableTxnMarkerTopic27.tame, WritableTxnMarkerTopic27.calm, WritableTxnMarkerTopic27.canon, WritableTxnMarkerTopic27.again⟩

theorem WritableTxnMarker27.emits (version : Int16) (t : WritableTxnMarker27) :
    Emits (WritableTxnMarker27.encode version t) (WritableTxnMarker27.wire version t) :=
  (emits_int64 t.ProducerId)
    |>.andThen (emits_int16 t.ProducerEpoch)
    |>.andThen (emits_bool t.TransactionResult)
    |>.andThen (emits_structs (WritableTxnMarkerTopic27.emits version) t.Topics)
    |>.andThen (emits_int32 t.CoordinatorEpoch)
theorem WritableTxnMarker27.sized (version : Int16) (t : WritableTxnMarker27) :
    Sized (WritableTxnMarker27.size version t) (WritableTxnMarker27.wire version t) :=
  Grows.sized ((Grows.add (sized_int64 t.ProducerId))
    |>.andThen (Grows.add (sized_int16 t.ProducerEpoch))
    |>.andThen (Grows.add (sized_bool t.TransactionResult))
    |>.andThen (Grows.structs (WritableTxnMarkerTopic27.sized version) t.Topics)
    |>.andThen (Grows.add (sized_int32 t.CoordinatorEpoch)))
theorem WritableTxnMarker27.reads (version : Int16) (t : WritableTxnMarker27) (h : t.Fits version) (t0 : WritableTxnMarker27) :
    Reads (WritableTxnMarker27.decode version t0) (WritableTxnMarker27.wire version t) (t.seen version t0) :=
  ((Step.field (set := fun (t : WritableTxnMarker27) x => { t with ProducerId := x }) (reads_int64 t.ProducerId))
    |>.andThen (Step.field (set := fun (t : WritableTxnMarker27) x => { t with ProducerEpoch := x }) (reads_int16 t.ProducerEpoch))
    |>.andThen (Step.field (set := fun (t : WritableTxnMarker27) x => { t with TransactionResult := x }) (reads_bool t.TransactionResult))
    |>.andThen (Step.structs (get := fun (t : WritableTxnMarker27) => t.Topics) (set := fun (t : WritableTxnMarker27) x => { t with Topics := x }) (fun x hx => WritableTxnMarkerTopic27.reads version x hx {}) h.Topics)
    |>.andThen (Step.field (set := fun (t : WritableTxnMarker27) x => { t with CoordinatorEpoch := x }) (reads_int32 t.CoordinatorEpoch)) : Step _ _ _) t0
theorem WritableTxnMarker27.tame (version : Int16) (t0 : WritableTxnMarker27) : Tame (WritableTxnMarker27.decode version t0) :=
  ((TameStep.field tame_int64)
    |>.andThen (TameStep.field tame_int16)
    |>.andThen (TameStep.field tame_bool)
    |>.andThen (TameStep.structs (WritableTxnMarkerTopic27.tame version {}))
    |>.andThen (TameStep.field tame_int32) : TameStep _) t0
theorem WritableTxnMarker27.calm (version : Int16) (t0 : WritableTxnMarker27) :
    Calm (WritableTxnMarker27.decode version t0) (fun _ => True) :=
  ((CalmStep.field tame_int64 calm_int64)
    |>.andThen (CalmStep.field tame_int16 calm_int16)
    |>.andThen (CalmStep.field tame_bool calm_bool)
    |>.andThen (CalmStep.structs (WritableTxnMarkerTopic27.tame version {}) (WritableTxnMarkerTopic27.calm version {}))
    |>.andThen (CalmStep.field tame_int32 calm_int32) : CalmStep _).2 t0
theorem WritableTxnMarker27.canon (version : Int16) (t : WritableTxnMarker27) (h : t.Canon version) :
    t.seen version {} = t :=
  WritableTxnMarker27.ext rfl rfl rfl (canon_structs (WritableTxnMarkerTopic27.canon version) h.Topics) rfl
theorem WritableTxnMarker27.again (version : Int16) (t t0 : WritableTxnMarker27) :
    WritableTxnMarker27.wire version (t.seen version t0) = WritableTxnMarker27.wire version t :=
  app_congr (app_congr (app_congr (app_congr (rfl) (rfl)) (rfl)) (again_structs (fun x => WritableTxnMarkerTopic27.again version x {}) t.Topics)) (rfl)
theorem WritableTxnMarker27.lawful : Lawful WritableTxnMarker27.type WritableTxnMarker27.layout :=
  ⟨WritableTxnMarker27.emits, WritableTxnMarker27.sized, WritableTxnMarker27.reads, WritableTxnMarker27.tame, WritableTxnMarker27.calm, WritableTxnMarker27.canon, WritableTxnMarker27.again⟩

theorem WriteTxnMarkersRequest.emits (version : Int16) (t : WriteTxnMarkersRequest) :
    Emits (WriteTxnMarkersRequest.encode version t) (WriteTxnMarkersRequest.wire version t) :=
  emits_structs (WritableTxnMarker27.emits version) t.Markers
theorem WriteTxnMarkersRequest.sized (version : Int16) (t : WriteTxnMarkersRequest) :
    Sized (WriteTxnMarkersRequest.size version t) (WriteTxnMarkersRequest.wire version t) :=
  Grows.sized (Grows.structs (WritableTxnMarker27.sized version) t.Markers)
theorem WriteTxnMarkersRequest.reads (version : Int16) (t : WriteTxnMarkersRequest) (h : t.Fits version) (t0 : WriteTxnMarkersRequest) :
    Reads (WriteTxnMarkersRequest.decode version t0) (WriteTxnMarkersRequest.wire version t) (t.seen version t0) :=
  (Step.structs (get := fun (t : WriteTxnMarkersRequest) => t.Markers) (set := fun (t : WriteTxnMarkersRequest) x => { t with Markers := x }) (fun x hx => WritableTxnMarker27.reads version x hx {}) h.Markers : Step _ _ _) t0
theorem WriteTxnMarkersRequest.tame (version : Int16) (t0 : WriteTxnMarkersRequest) : Tame (WriteTxnMarkersRequest.decode version t0) :=
  (TameStep.structs (WritableTxnMarker27.tame version {}) : TameStep _) t0
theorem WriteTxnMarkersRequest.calm (version : Int16) (t0 : WriteTxnMarkersRequest) :
    Calm (WriteTxnMarkersRequest.decode version t0) (fun _ => True) :=
  (CalmStep.structs (WritableTxnMarker27.tame version {}) (WritableTxnMarker27.calm version {}) : CalmStep _).2 t0
theorem WriteTxnMarkersRequest.canon (version : Int16) (t : WriteTxnMarkersRequest) (h : t.Canon version) :
    t.seen version {} = t :=
  WriteTxnMarkersRequest.ext (canon_structs (WritableTxnMarker27.canon version) h.Markers)
theorem WriteTxnMarkersRequest.again (version : Int16) (t t0 : WriteTxnMarkersRequest) :
    WriteTxnMarkersRequest.wire version (t.seen version t0) = WriteTxnMarkersRequest.wire version t :=
  again_structs (fun x => WritableTxnMarker27.again version x {}) t.Markers
theorem WriteTxnMarkersRequest.lawful : Lawful WriteTxnMarkersRequest.type WriteTxnMarkersRequest.layout :=
  ⟨WriteTxnMarkersRequest.emits, WriteTxnMarkersRequest.sized, WriteTxnMarkersRequest.reads, WriteTxnMarkersRequest.tame, WriteTxnMarkersRequest.calm, WriteTxnMarkersRequest.canon, WriteTxnMarkersRequest.again⟩

theorem WritableTxnMarkerPartitionResult27.emits (version : Int16) (t : WritableTxnMarkerPartitionResult27) :
    Emits (WritableTxnMarkerPartitionResult27.encode version t) (WritableTxnMarkerPartitionResult27.wire version t) :=
  (emits_int32 t.PartitionIndex)
    |>.andThen (emits_int16 t.ErrorCode)
theorem WritableTxnMarkerPartitionResult27.sized (version : Int16) (t : WritableTxnMarkerPartitionResult27) :
    Sized (WritableTxnMarkerPartitionResult27.size version t) (WritableTxnMarkerPartitionResult27.wire version t) :=
  Grows.sized ((Grows.add (sized_int32 t.PartitionIndex))
    |>.andThen (Grows.add (sized_int16 t.ErrorCode)))
theorem WritableTxnMarkerPartitionResult27.reads (version : Int16) (t : WritableTxnMarkerPartitionResult27) (_h : t.Fits version) (t0 : WritableTxnMarkerPartitionResult27) :
    Reads (WritableTxnMarkerPartitionResult27.decode version t0) (WritableTxnMarkerPartitionResult27.wire version t) (t.seen version t0) :=
  ((Step.field (set := fun (t : WritableTxnMarkerPartitionResult27) x => { t with PartitionIndex := x }) (reads_int32 t.PartitionIndex))
    |>.andThen (Step.field (set := fun (t : WritableTxnMarkerPartitionResult27) x => { t with ErrorCode := x }) (reads_int16 t.ErrorCode)) : Step _ _ _) t0
theorem WritableTxnMarkerPartitionResult27.tame (version : Int16) (t0 : WritableTxnMarkerPartitionResult27) : Tame (WritableTxnMarkerPartitionResult27.decode version t0) :=
  ((TameStep.field tame_int32)
    |>.andThen (TameStep.field tame_int16) : TameStep _) t0
theorem WritableTxnMarkerPartitionResult27.calm (version : Int16) (t0 : WritableTxnMarkerPartitionResult27) :
    Calm (WritableTxnMarkerPartitionResult27.decode version t0) (fun _ => True) :=
  ((CalmStep.field tame_int32 calm_int32)
    |>.andThen (CalmStep.field tame_int16 calm_int16) : CalmStep _).2 t0
theorem WritableTxnMarkerPartitionResult27.canon (version : Int16) (t : WritableTxnMarkerPartitionResult27) (_h : t.Canon version) :
    t.seen version {} = t :=
  WritableTxnMarkerPartitionResult27.ext rfl rfl
theorem WritableTxnMarkerPartitionResult27.again (version : Int16) (t t0 : WritableTxnMarkerPartitionResult27) :
    WritableTxnMarkerPartitionResult27.wire version (t.seen version t0) = WritableTxnMarkerPartitionResult27.wire version t :=
  app_congr (rfl) (rfl)
theorem WritableTxnMarkerPartitionResult27.lawful : Lawful WritableTxnMarkerPartitionResult27.type WritableTxnMarkerPartitionResult27.layout :=
  ⟨WritableTxnMarkerPartitionResult27.emits, WritableTxnMarkerPartitionResult27.sized, WritableTxnMarkerPartitionResult27.reads, WritableTxnMarkerPartitionResult27.tame, WritableTxnMarkerPartitionResult27.calm, WritableTxnMarkerPartitionResult27.canon, WritableTxnMarkerPartitionResult27.again⟩

theorem WritableTxnMarkerTopicResult27.emits (version : Int16) (t : WritableTxnMarkerTopicResult27) :
    Emits (WritableTxnMarkerTopicResult27.encode version t) (WritableTxnMarkerTopicResult27.wire version t) :=
  (emits_string t.Name)
    |>.andThen (emits_structs (WritableTxnMarkerPartitionResult27.emits version) t.Partitions)
theorem WritableTxnMarkerTopicResult27.sized (version : Int16) (t : WritableTxnMarkerTopicResult27) :
    Sized (WritableTxnMarkerTopicResult27.size version t) (WritableTxnMarkerTopicResult27.wire version t) :=
  Grows.sized ((Grows.add (sized_string t.Name))
    |>.andThen (Grows.structs (WritableTxnMarkerPartitionResult27.sized version) t.Partitions))
theorem WritableTxnMarkerTopicResult27.reads (version : Int16) (t : WritableTxnMarkerTopicResult27) (h : t.Fits version) (t0 : WritableTxnMarkerTopicResult27) :
    Reads (WritableTxnMarkerTopicResult27.decode version t0) (WritableTxnMarkerTopicResult27.wire version t) (t.seen version t0) :=
  ((Step.field (set := fun (t : WritableTxnMarkerTopicResult27) x => { t with Name := x }) (reads_string h.Name))
    |>.andThen (Step.structs (get := fun (t : WritableTxnMarkerTopicResult27) => t.Partitions) (set := fun (t : WritableTxnMarkerTopicResult27) x => { t with Partitions := x }) (fun x hx => WritableTxnMarkerPartitionResult27.reads version x hx {}) h.Partitions) : Step _ _ _) t0
theorem WritableTxnMarkerTopicResult27.tame (version : Int16) (t0 : WritableTxnMarkerTopicResult27) : Tame (WritableTxnMarkerTopicResult27.decode version t0) :=
  ((TameStep.field tame_string)
    |>.andThen (TameStep.structs (WritableTxnMarkerPartitionResult27.tame version {})) : TameStep _) t0
theorem WritableTxnMarkerTopicResult27.calm (version : Int16) (t0 : WritableTxnMarkerTopicResult27) :
    Calm (WritableTxnMarkerTopicResult27.decode version t0) (fun _ => True) :=
  ((CalmStep.field tame_string calm_string)
    |>.andThen (CalmStep.structs (WritableTxnMarkerPartitionResult27.tame version {}) (WritableTxnMarkerPartitionResult27.calm version {})) : CalmStep _).2 t0
theorem WritableTxnMarkerTopicResult27.canon (version : Int16) (t : WritableTxnMarkerTopicResult27) (h : t.Canon version) :
    t.seen version {} = t :=
  WritableTxnMarkerTopicResult27.ext rfl (canon_structs (WritableTxnMarkerPartitionResult27.canon version) h.Partitions)
theorem WritableTxnMarkerTopicResult27.again (version : Int16) (t t0 : WritableTxnMarkerTopicResult27) :
    WritableTxnMarkerTopicResult27.wire version (t.seen version t0) = WritableTxnMarkerTopicResult27.wire version t :=
  app_congr (rfl) (again_structs (fun x => WritableTxnMarkerPartitionResult27.again version x {}) t.Partitions)
theorem WritableTxnMarkerTopicResult27.lawful : Lawful WritableTxnMarkerTopicResult27.type WritableTxnMarkerTopicResult27.layout :=
  ⟨WritableTxnMarkerTopicResult27.emits, WritableTxnMarkerTopicResult27.sized, WritableTxnMarkerTopicResult27.reads, WritableTxnMarkerTopicResult27.tame, WritableTxnMarkerTopicResult27.calm, WritableTxnMarkerTopicResult27.canon, WritableTxnMarkerTopicResult27.again⟩

theorem WritableTxnMarkerResult27.emits (version : Int16) (t : WritableTxnMarkerResult27) :
    Emits (WritableTxnMarkerResult27.encode version t) (WritableTxnMarkerResult27.wire version t) :=
  (emits_int64 t.ProducerId)
    |>.andThen (emits_structs (WritableTxnMarkerTopicResult27.emits version) t.Topics)
theorem WritableTxnMarkerResult27.sized (version : Int16) (t : WritableTxnMarkerResult27) :
    Sized (WritableTxnMarkerResult27.size version t) (WritableTxnMarkerResult27.wire version t) :=
  Grows.sized ((Grows.add (sized_int64 t.ProducerId))
    |>.andThen (Grows.structs (WritableTxnMarkerTopicResult27.sized version) t.Topics))
theorem WritableTxnMarkerResult27.reads (version : Int16) (t : WritableTxnMarkerResult27) (h : t.Fits version) (t0 : WritableTxnMarkerResult27) :
    Reads (WritableTxnMarkerResult27.decode version t0) (WritableTxnMarkerResult27.wire version t) (t.seen version t0) :=
  ((Step.field (set := fun (t : WritableTxnMarkerResult27) x => { t with ProducerId := x }) (reads_int64 t.ProducerId))
    |>.andThen (Step.structs (get := fun (t : WritableTxnMarkerResult27) => t.Topics) (set := fun (t : WritableTxnMarkerResult27) x => { t with Topics := x }) (fun x hx => WritableTxnMarkerTopicResult27.reads version x hx {}) h.Topics) : Step _ _ _) t0
theorem WritableTxnMarkerResult27.tame (version : Int16) (t0 : WritableTxnMarkerResult27) : Tame (WritableTxnMarkerResult27.decode version t0) :=
  ((TameStep.field tame_int64)
    |>.andThen (TameStep.structs (WritableTxnMarkerTopicResult27.tame version {})) : TameStep _) t0
theorem WritableTxnMarkerResult27.calm (version : Int16) (t0 : WritableTxnMarkerResult27) :
    Calm (WritableTxnMarkerResult27.decode version t0) (fun _ => True) :=
  ((CalmStep.field tame_int64 calm_int64)
    |>.andThen (CalmStep.structs (WritableTxnMarkerTopicResult27.tame version {}) (WritableTxnMarkerTopicResult27.calm version {})) : CalmStep _).2 t0
theorem WritableTxnMarkerResult27.canon (version : Int16) (t : WritableTxnMarkerResult27) (h : t.Canon version) :
    t.seen version {} = t :=
  WritableTxnMarkerResult27.ext rfl (canon_structs (WritableTxnMarkerTopicResult27.canon version) h.Topics)
theorem WritableTxnMarkerResult27.again (version : Int16) (t t0 : WritableTxnMarkerResult27) :
    WritableTxnMarkerResult27.wire version (t.seen version t0) = WritableTxnMarkerResult27.wire version t :=
  app_congr (rfl) (again_structs (fun x => WritableTxnMarkerTopicResult27.again version x {}) t.Topics)
theorem WritableTxnMarkerResult27.lawful : Lawful WritableTxnMarkerResult27.type WritableTxnMarkerResult27.layout :=
  ⟨WritableTxnMarkerResult27.emits, WritableTxnMarkerResult27.sized, WritableTxnMarkerResult27.reads, WritableTxnMarkerResult27.tame, WritableTxnMarkerResult27.calm, WritableTxnMarkerResult27.canon, WritableTxnMarkerResult27.again⟩

theorem WriteTxnMarkersResponse.emits (version : Int16) (t : WriteTxnMarkersResponse) :
    Emits (WriteTxnMarkersResponse.encode version t) (WriteTxnMarkersResponse.wire version t) :=
  emits_structs (WritableTxnMarkerResult27.emits version) t.Markers
theorem WriteTxnMarkersResponse.sized (version : Int16) (t : WriteTxnMarkersResponse) :
    Sized (WriteTxnMarkersResponse.size version t) (WriteTxnMarkersResponse.wire version t) :=
  Grows.sized (Grows.structs (WritableTxnMarkerResult27.sized version) t.Markers)
theorem WriteTxnMarkersResponse.reads (version : Int16) (t : WriteTxnMarkersResponse) (h : t.Fits version) (t0 : WriteTxnMarkersResponse) :
    Reads (WriteTxnMarkersResponse.decode version t0) (WriteTxnMarkersResponse.wire version t) (t.seen version t0) :=
  (Step.structs (get := fun (t : WriteTxnMarkersResponse) => t.Markers) (set := fun (t : WriteTxnMarkersResponse) x => { t with Markers := x }) (fun x hx => WritableTxnMarkerResult27.reads version x hx {}) h.Markers : Step _ _ _) t0
theorem WriteTxnMarkersResponse.tame (version : Int16) (t0 : WriteTxnMarkersResponse) : Tame (WriteTxnMarkersResponse.decode version t0) :=
  (TameStep.structs (WritableTxnMarkerResult27.tame version {}) : TameStep _) t0
theorem WriteTxnMarkersResponse.calm (version : Int16) (t0 : WriteTxnMarkersResponse) :
    Calm (WriteTxnMarkersResponse.decode version t0) (fun _ => True) :=
  (CalmStep.structs (WritableTxnMarkerResult27.tame version {}) (WritableTxnMarkerResult27.calm version {}) : CalmStep _).2 t0
theorem WriteTxnMarkersResponse.canon (version : Int16) (t : WriteTxnMarkersResponse) (h : t.Canon version) :
    t.seen version {} = t :=
  WriteTxnMarkersResponse.ext (canon_structs (WritableTxnMarkerResult27.canon version) h.Markers)
theorem WriteTxnMarkersResponse.again (version : Int16) (t t0 : WriteTxnMarkersResponse) :
    WriteTxnMarkersResponse.wire version (t.seen version t0) = WriteTxnMarkersResponse.wire version t :=
  again_structs (fun x => WritableTxnMarkerResult27.again version x {}) t.Markers
theorem WriteTxnMarkersResponse.lawful : Lawful WriteTxnMarkersResponse.type WriteTxnMarkersResponse.layout :=
  ⟨WriteTxnMarkersResponse.emits, WriteTxnMarkersResponse.sized, WriteTxnMarkersResponse.reads, WriteTxnMarkersResponse.tame, WriteTxnMarkersResponse.calm, WriteTxnMarkersResponse.canon, WriteTxnMarkersResponse.again⟩

end Kafka.Msg
