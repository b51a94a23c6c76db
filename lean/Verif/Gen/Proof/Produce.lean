import Verif.Message.StepLemmas
import Verif.Gen.Spec.Produce
/-!
Generated by tools/gen_messages.py: laws of the Produce messages.
-/
namespace Kafka.Msg

theorem PartitionProduceData0.emits (version : Int16) (t : PartitionProduceData0) :
    Emits (PartitionProduceData0.encode version t) (PartitionProduceData0.wire version t) :=
  (emits_int32 t.PartitionIndex)
    |>.andThen (emits_bytes t.Records)
theorem PartitionProduceData0.sized (version : Int16) (t : PartitionProduceData0) :
    Sized (PartitionProduceData0.size version t) (PartitionProduceData0.wire version t) :=
  Grows.sized ((Grows.add (sized_int32 t.PartitionIndex))
    |>.andThen (Grows.add (sized_bytes t.Records)))
theorem PartitionProduceData0.reads (version : Int16) (t : PartitionProduceData0) (h : t.Fits version) (t0 : PartitionProduceData0) :
    Reads (PartitionProduceData0.decode version t0) (PartitionProduceData0.wire version t) (t.seen version t0) :=
  ((Step.field (set := fun (t : PartitionProduceData0) x => { t with PartitionIndex := x }) (reads_int32 t.PartitionIndex))
    |>.andThen (Step.field (set := fun (t : PartitionProduceData0) x => { t with Records := x }) (reads_bytes h.Records)) : Step _ _ _) t0
theorem PartitionProduceData0.tame (version : Int16) (t0 : PartitionProduceData0) : Tame (PartitionProduceData0.decode version t0) :=
  ((TameStep.field tame_int32)
    |>.andThen (TameStep.field tame_bytes) : TameStep _) t0
theorem PartitionProduceData0.calm (version : Int16) (t0 : PartitionProduceData0) :
    Calm (PartitionProduceData0.decode version t0) (fun _ => True) :=
  ((CalmStep.field tame_int32 calm_int32)
    |>.andThen (CalmStep.field tame_bytes calm_bytes) : CalmStep _).2 t0
theorem PartitionProduceData0.canon (version : Int16) (t : PartitionProduceData0) (h : t.Canon version) :
    t.seen version {} = t :=
  PartitionProduceData0.ext rfl (canon_nonNil h.Records)
theorem PartitionProduceData0.again (version : Int16) (t t0 : PartitionProduceData0) :
    PartitionProduceData0.wire version (t.seen version t0) = PartitionProduceData0.wire version t :=
  app_congr (rfl) (rfl)
theorem PartitionProduceData0.lawful : Lawful PartitionProduceData0.type PartitionProduceData0.layout :=
  ⟨PartitionProduceData0.emits, PartitionProduceData0.sized, PartitionProduceData0.reads, PartitionProduceData0.tame, PartitionProduceData0.calm, PartitionProduceData0.canon, PartitionProduceData0.again⟩

theorem TopicProduceData0.emits (version : Int16) (t : TopicProduceData0) :
    Emits (TopicProduceData0.encode version t) (TopicProduceData0.wire version t) :=
  (emits_string t.Name)
    |>.andThen (emits_structs (PartitionProduceData0.emits version) t.Partitions)
theorem TopicProduceData0.sized (version : Int16) (t : TopicProduceData0) :
    Sized (TopicProduceData0.size version t) (TopicProduceData0.wire version t) :=
  Grows.sized ((Grows.add (sized_string t.Name))
    |>.andThen (Grows.structs (PartitionProduceData0.sized version) t.Partitions))
theorem TopicProduceData0.reads (version : Int16) (t : TopicProduceData0) (h : t.Fits version) (t0 : TopicProduceData0) :
    Reads (TopicProduceData0.decode version t0) (TopicProduceData0.wire version t) (t.seen version t0) :=
  ((Step.field (set := fun (t : TopicProduceData0) x => { t with Name := x }) (reads_string h.Name))
    |>.andThen (Step.structs (get := fun (t : TopicProduceData0) => t.Partitions) (set := fun (t : TopicProduceData0) x => { t with Partitions := x }) (fun x hx => PartitionProduceData0.reads version x hx {}) h.Partitions) : Step _ _ _) t0
theorem TopicProduceData0.tame (version : Int16) (t0 : TopicProduceData0) : Tame (TopicProduceData0.decode version t0) :=
  ((TameStep.field tame_string)
    |>.andThen (TameStep.structs (PartitionProduceData0.tame version {})) : TameStep _) t0
theorem TopicProduceData0.calm (version : Int16) (t0 : TopicProduceData0) :
    Calm (TopicProduceData0.decode version t0) (fun _ => True) :=
  ((CalmStep.field tame_string calm_string)
    |>.andThen (CalmStep.structs (PartitionProduceData0.tame version {}) (PartitionProduceData0.calm version {})) : CalmStep _).2 t0
theorem TopicProduceData0.canon (version : Int16) (t : TopicProduceData0) (h : t.Canon version) :
    t.seen version {} = t :=
  TopicProduceData0.ext rfl (canon_structs (PartitionProduceData0.canon version) h.Partitions)
theorem TopicProduceData0.again (version : Int16) (t t0 : TopicProduceData0) :
    TopicProduceData0.wire version (t.seen version t0) = TopicProduceData0.wire version t :=
  app_congr (rfl) (again_structs (fun x => PartitionProduceData0.again version x {}) t.Partitions)
theorem TopicProduceData0.lawful : Lawful TopicProduceData0.type TopicProduceData0.layout :=
  ⟨TopicProduceData0.emits, TopicProduceData0.sized, TopicProduceData0.reads, TopicProduceData0.tame, TopicProduceData0.calm, TopicProduceData0.canon, TopicProduceData0.again⟩

theorem ProduceRequest.emits (version : Int16) (t : ProduceRequest) :
    Emits (ProduceRequest.encode version t) (ProduceRequest.wire version t) :=
  (Emits.onlyIf (emits_string t.TransactionalId))
    |>.andThen (emits_int16 t.Acks)
    |>.andThen (emits_int32 t.TimeoutMs)
    |>.andThen (emits_structs (TopicProduceData0.emits version) t.Topics)
theorem ProduceRequest.sized (version : Int16) (t : ProduceRequest) :
    Sized (ProduceRequest.size version t) (ProduceRequest.wire version t) :=
  Grows.sized ((Grows.onlyIf (Grows.add (sized_string t.TransactionalId)))
    |>.andThen (Grows.add (sized_int16 t.Acks))
    |>.andThen (Grows.add (sized_int32 t.TimeoutMs))
    |>.andThen (Grows.structs (TopicProduceData0.sized version) t.Topics))
theorem ProduceRequest.reads (version : Int16) (t : ProduceRequest) (h : t.Fits version) (t0 : ProduceRequest) :
    Reads (ProduceRequest.decode version t0) (ProduceRequest.wire version t) (t.seen version t0) :=
  ((Step.optField (c := version ≥ 3) (set := fun (t : ProduceRequest) x => { t with TransactionalId := x }) (·.TransactionalId) (fun _ => rfl) fun hc => reads_string (h.TransactionalId hc))
    |>.andThen (Step.field (set := fun (t : ProduceRequest) x => { t with Acks := x }) (reads_int16 t.Acks))
    |>.andThen (Step.field (set := fun (t : ProduceRequest) x => { t with TimeoutMs := x }) (reads_int32 t.TimeoutMs))
    |>.andThen (Step.structs (get := fun (t : ProduceRequest) => t.Topics) (set := fun (t : ProduceRequest) x => { t with Topics := x }) (fun x hx => TopicProduceData0.reads version x hx {}) h.Topics) : Step _ _ _) t0
theorem ProduceRequest.tame (version : Int16) (t0 : ProduceRequest) : Tame (ProduceRequest.decode version t0) :=
  ((TameStep.onlyIf (TameStep.field tame_string))
    |>.andThen (TameStep.field tame_int16)
    |>.andThen (TameStep.field tame_int32)
    |>.andThen (TameStep.structs (TopicProduceData0.tame version {})) : TameStep _) t0
theorem ProduceRequest.calm (version : Int16) (t0 : ProduceRequest) :
    Calm (ProduceRequest.decode version t0) (fun _ => True) :=
  ((CalmStep.onlyIf (CalmStep.field tame_string calm_string))
    |>.andThen (CalmStep.field tame_int16 calm_int16)
    |>.andThen (CalmStep.field tame_int32 calm_int32)
    |>.andThen (CalmStep.structs (TopicProduceData0.tame version {}) (TopicProduceData0.calm version {})) : CalmStep _).2 t0
theorem ProduceRequest.canon (version : Int16) (t : ProduceRequest) (h : t.Canon version) :
    t.seen version {} = t :=
  ProduceRequest.ext (canon_opt h.TransactionalId) rfl rfl (canon_structs (TopicProduceData0.canon version) h.Topics)
theorem ProduceRequest.again (version : Int16) (t t0 : ProduceRequest) :
    ProduceRequest.wire version (t.seen version t0) = ProduceRequest.wire version t :=
  app_congr (app_congr (app_congr (again_opt Wire.string t.TransactionalId t0.TransactionalId) (rfl)) (rfl)) (again_structs (fun x => TopicProduceData0.again version x {}) t.Topics)
theorem ProduceRequest.lawful : Lawful ProduceRequest.type ProduceRequest.layout :=
  ⟨ProduceRequest.emits, ProduceRequest.sized, ProduceRequest.reads, ProduceRequest.tame, ProduceRequest.calm, ProduceRequest.canon, ProduceRequest.again⟩

theorem BatchIndexAndErrorMessage0.emits (version : Int16) (t : BatchIndexAndErrorMessage0) :
    Emits (BatchIndexAndErrorMessage0.encode version t) (BatchIndexAndErrorMessage0.wire version t) :=
  (Emits.onlyIf (emits_int32 t.BatchIndex))
    |>.andThen (Emits.onlyIf (emits_string t.BatchIndexErrorMessage))
theorem BatchIndexAndErrorMessage0.sized (version : Int16) (t : BatchIndexAndErrorMessage0) :
    Sized (BatchIndexAndErrorMessage0.size version t) (BatchIndexAndErrorMessage0.wire version t) :=
  Grows.sized ((Grows.onlyIf (Grows.add (sized_int32 t.BatchIndex)))
    |>.andThen (Grows.onlyIf (Grows.add (sized_string t.BatchIndexErrorMessage))))
theorem BatchIndexAndErrorMessage0.reads (version : Int16) (t : BatchIndexAndErrorMessage0) (h : t.Fits version) (t0 : BatchIndexAndErrorMessage0) :
    Reads (BatchIndexAndErrorMessage0.decode version t0) (BatchIndexAndErrorMessage0.wire version t) (t.seen version t0) :=
  ((Step.optField (c := version ≥ 8) (set := fun (t : BatchIndexAndErrorMessage0) x => { t with BatchIndex := x }) (·.BatchIndex) (fun _ => rfl) fun _ => reads_int32 t.BatchIndex)
    |>.andThen (Step.optField (c := version ≥ 8) (set := fun (t : BatchIndexAndErrorMessage0) x => { t with BatchIndexErrorMessage := x }) (·.BatchIndexErrorMessage) (fun _ => rfl) fun hc => reads_string (h.BatchIndexErrorMessage hc)) : Step _ _ _) t0
theorem BatchIndexAndErrorMessage0.tame (version : Int16) (t0 : BatchIndexAndErrorMessage0) : Tame (BatchIndexAndErrorMessage0.decode version t0) :=
  ((TameStep.onlyIf (TameStep.field tame_int32))
    |>.andThen (TameStep.onlyIf (TameStep.field tame_string)) : TameStep _) t0
theorem BatchIndexAndErrorMessage0.calm (version : Int16) (t0 : BatchIndexAndErrorMessage0) :
    Calm (BatchIndexAndErrorMessage0.decode version t0) (fun _ => True) :=
  ((CalmStep.onlyIf (CalmStep.field tame_int32 calm_int32))
    |>.andThen (CalmStep.onlyIf (CalmStep.field tame_string calm_string)) : CalmStep _).2 t0
theorem BatchIndexAndErrorMessage0.canon (version : Int16) (t : BatchIndexAndErrorMessage0) (h : t.Canon version) :
    t.seen version {} = t :=
  BatchIndexAndErrorMessage0.ext (canon_opt h.BatchIndex) (canon_opt h.BatchIndexErrorMessage)
theorem BatchIndexAndErrorMessage0.again (version : Int16) (t t0 : BatchIndexAndErrorMessage0) :
    BatchIndexAndErrorMessage0.wire version (t.seen version t0) = BatchIndexAndErrorMessage0.wire version t :=
  app_congr (again_opt Wire.int32 t.BatchIndex t0.BatchIndex) (again_opt Wire.string t.BatchIndexErrorMessage t0.BatchIndexErrorMessage)
theorem BatchIndexAndErrorMessage0.lawful : Lawful BatchIndexAndErrorMessage0.type BatchIndexAndErrorMessage0.layout :=
  ⟨BatchIndexAndErrorMessage0.emits, BatchIndexAndErrorMessage0.sized, BatchIndexAndErrorMessage0.reads, BatchIndexAndErrorMessage0.tame, BatchIndexAndErrorMessage0.calm, BatchIndexAndErrorMessage0.canon, BatchIndexAndErrorMessage0.again⟩

theorem PartitionProduceResponse0.emits (version : Int16) (t : PartitionProduceResponse0) :
    Emits (PartitionProduceResponse0.encode version t) (PartitionProduceResponse0.wire version t) :=
  (emits_int32 t.PartitionIndex)
    |>.andThen (emits_int16 t.ErrorCode)
    |>.andThen (emits_int64 t.BaseOffset)
    |>.andThen (Emits.onlyIf (emits_int64 t.LogAppendTimeMs))
    |>.andThen (Emits.onlyIf (emits_int64 t.LogStartOffset))
    |>.andThen (Emits.onlyIf (emits_structs (BatchIndexAndErrorMessage0.emits version) t.RecordErrors))
    |>.andThen (Emits.onlyIf (emits_string t.ErrorMessage))
theorem PartitionProduceResponse0.sized (version : Int16) (t : PartitionProduceResponse0) :
    Sized (PartitionProduceResponse0.size version t) (PartitionProduceResponse0.wire version t) :=
  Grows.sized ((Grows.add (sized_int32 t.PartitionIndex))
    |>.andThen (Grows.add (sized_int16 t.ErrorCode))
    |>.andThen (Grows.add (sized_int64 t.BaseOffset))
    |>.andThen (Grows.onlyIf (Grows.add (sized_int64 t.LogAppendTimeMs)))
    |>.andThen (Grows.onlyIf (Grows.add (sized_int64 t.LogStartOffset)))
    |>.andThen (Grows.onlyIf (Grows.structs (BatchIndexAndErrorMessage0.sized version) t.RecordErrors))
    |>.andThen (Grows.onlyIf (Grows.add (sized_string t.ErrorMessage))))
theorem PartitionProduceResponse0.reads (version : Int16) (t : PartitionProduceResponse0) (h : t.Fits version) (t0 : PartitionProduceResponse0) :
    Reads (PartitionProduceResponse0.decode version t0) (PartitionProduceResponse0.wire version t) (t.seen version t0) :=
  ((Step.field (set := fun (t : PartitionProduceResponse0) x => { t with PartitionIndex := x }) (reads_int32 t.PartitionIndex))
    |>.andThen (Step.field (set := fun (t : PartitionProduceResponse0) x => { t with ErrorCode := x }) (reads_int16 t.ErrorCode))
    |>.andThen (Step.field (set := fun (t : PartitionProduceResponse0) x => { t with BaseOffset := x }) (reads_int64 t.BaseOffset))
    |>.andThen (Step.optField (c := version ≥ 2) (set := fun (t : PartitionProduceResponse0) x => { t with LogAppendTimeMs := x }) (·.LogAppendTimeMs) (fun _ => rfl) fun _ => reads_int64 t.LogAppendTimeMs)
    |>.andThen (Step.optField (c := version ≥ 5) (set := fun (t : PartitionProduceResponse0) x => { t with LogStartOffset := x }) (·.LogStartOffset) (fun _ => rfl) fun _ => reads_int64 t.LogStartOffset)
    |>.andThen (Step.optStructs (c := version ≥ 8) (get := fun (t : PartitionProduceResponse0) => t.RecordErrors) (set := fun (t : PartitionProduceResponse0) x => { t with RecordErrors := x }) (fun _ => rfl) (fun x hx => BatchIndexAndErrorMessage0.reads version x hx {}) h.RecordErrors)
    |>.andThen (Step.optField (c := version ≥ 8) (set := fun (t : PartitionProduceResponse0) x => { t with ErrorMessage := x }) (·.ErrorMessage) (fun _ => rfl) fun hc => reads_string (h.ErrorMessage hc)) : Step _ _ _) t0
theorem PartitionProduceResponse0.tame (version : Int16) (t0 : PartitionProduceResponse0) : Tame (PartitionProduceResponse0.decode version t0) :=
  ((TameStep.field tame_int32)
    |>.andThen (TameStep.field tame_int16)
    |>.andThen (TameStep.field tame_int64)
    |>.andThen (TameStep.onlyIf (TameStep.field tame_int64))
    |>.andThen (TameStep.onlyIf (TameStep.field tame_int64))
    |>.andThen (TameStep.onlyIf (TameStep.structs (BatchIndexAndErrorMessage0.tame version {})))
    |>.andThen (TameStep.onlyIf (TameStep.field tame_string)) : TameStep _) t0
theorem PartitionProduceResponse0.calm (version : Int16) (t0 : PartitionProduceResponse0) :
    Calm (PartitionProduceResponse0.decode version t0) (fun _ => True) :=
  ((CalmStep.field tame_int32 calm_int32)
    |>.andThen (CalmStep.field tame_int16 calm_int16)
    |>.andThen (CalmStep.field tame_int64 calm_int64)
    |>.andThen (CalmStep.onlyIf (CalmStep.field tame_int64 calm_int64))
    |>.andThen (CalmStep.onlyIf (CalmStep.field tame_int64 calm_int64))
    |>.andThen (CalmStep.onlyIf (CalmStep.structs (BatchIndexAndErrorMessage0.tame version {}) (BatchIndexAndErrorMessage0.calm version {})))
    |>.andThen (CalmStep.onlyIf (CalmStep.field tame_string calm_string)) : CalmStep _).2 t0
theorem PartitionProduceResponse0.canon (version : Int16) (t : PartitionProduceResponse0) (h : t.Canon version) :
    t.seen version {} = t :=
  PartitionProduceResponse0.ext rfl rfl rfl (canon_opt h.LogAppendTimeMs) (canon_opt h.LogStartOffset) (canon_optStructs (BatchIndexAndErrorMessage0.canon version) h.RecordErrors.1 h.RecordErrors.2) (canon_opt h.ErrorMessage)
theorem PartitionProduceResponse0.again (version : Int16) (t t0 : PartitionProduceResponse0) :
    PartitionProduceResponse0.wire version (t.seen version t0) = PartitionProduceResponse0.wire version t :=
  app_congr (app_congr (app_congr (app_congr (app_congr (app_congr (rfl) (rfl)) (rfl)) (again_opt Wire.int64 t.LogAppendTimeMs t0.LogAppendTimeMs)) (again_opt Wire.int64 t.LogStartOffset t0.LogStartOffset)) (again_optStructs (fun x => BatchIndexAndErrorMessage0.again version x {}) t.RecordErrors t0.RecordErrors)) (again_opt Wire.string t.ErrorMessage t0.ErrorMessage)
theorem PartitionProduceResponse0.lawful : Lawful PartitionProduceResponse0.type PartitionProduceResponse0.layout :=
  ⟨PartitionProduceResponse0.emits, PartitionProduceResponse0.sized, PartitionProduceResponse0.reads, PartitionProduceResponse0.tame, PartitionProduceResponse0.calm, PartitionProduceResponse0.canon, PartitionProduceResponse0.again⟩

theorem TopicProduceResponse0.emits (version : Int16) (t : TopicProduceResponse0) :
    Emits (TopicProduceResponse0.encode version t) (TopicProduceResponse0.wire version t) :=
  (emits_string t.Name)
    |>.andThen (emits_structs (PartitionProduceResponse0.emits version) t.Partitions)
theorem TopicProduceResponse0.sized (version : Int16) (t : TopicProduceResponse0) :
    Sized (TopicProduceResponse0.size version t) (TopicProduceResponse0.wire version t) :=
  Grows.sized ((Grows.add (sized_string t.Name))
    |>.andThen (Grows.structs (PartitionProduceResponse0.sized version) t.Partitions))
theorem TopicProduceResponse0.reads (version : Int16) (t : TopicProduceResponse0) (h : t.Fits version) (t0 : TopicProduceResponse0) :
    Reads (TopicProduceResponse0.decode version t0) (TopicProduceResponse0.wire version t) (t.seen version t0) :=
  ((Step.field (set := fun (t : TopicProduceResponse0) x => { t with Name := x }) (reads_string h.Name))
    |>.andThen (Step.structs (get := fun (t : TopicProduceResponse0) => t.Partitions) (set := fun (t : TopicProduceResponse0) x => { t with Partitions := x }) (fun x hx => PartitionProduceResponse0.reads version x hx {}) h.Partitions) : Step _ _ _) t0
theorem TopicProduceResponse0.tame (version : Int16) (t0 : TopicProduceResponse0) : Tame (TopicProduceResponse0.decode version t0) :=
  ((TameStep.field tame_string)
    |>.andThen (TameStep.structs (PartitionProduceResponse0.tame version {})) : TameStep _) t0
theorem TopicProduceResponse0.calm (version : Int16) (t0 : TopicProduceResponse0) :
    Calm (TopicProduceResponse0.decode version t0) (fun _ => True) :=
  ((CalmStep.field tame_string calm_string)
    |>.andThen (CalmStep.structs (PartitionProduceResponse0.tame version {}) (PartitionProduceResponse0.calm version {})) : CalmStep _).2 t0
theorem TopicProduceResponse0.canon (version : Int16) (t : TopicProduceResponse0) (h : t.Canon version) :
    t.seen version {} = t :=
  TopicProduceResponse0.ext rfl (canon_structs (PartitionProduceResponse0.canon version) h.Partitions)
theorem TopicProduceResponse0.again (version : Int16) (t t0 : TopicProduceResponse0) :
    TopicProduceResponse0.wire version (t.seen version t0) = TopicProduceResponse0.wire version t :=
  app_congr (rfl) (again_structs (fun x => PartitionProduceResponse0.again version x {}) t.Partitions)
theorem TopicProduceResponse0.lawful : Lawful TopicProduceResponse0.type TopicProduceResponse0.layout :=
  ⟨TopicProduceResponse0.emits, TopicProduceResponse0.sized, TopicProduceResponse0.reads, TopicProduceResponse0.tame, TopicProduceResponse0.calm, TopicProduceResponse0.canon, TopicProduceResponse0.again⟩

theorem ProduceResponse.emits (version : Int16) (t : ProduceResponse) :
    Emits (ProduceResponse.encode version t) (ProduceResponse.wire version t) :=
  (emits_structs (TopicProduceResponse0.emits version) t.Responses)
    |>.andThen (Emits.onlyIf (emits_int32 t.ThrottleTimeMs))
theorem ProduceResponse.sized (version : Int16) (t : ProduceResponse) :
    Sized (ProduceResponse.size version t) (ProduceResponse.wire version t) :=
  Grows.sized ((Grows.structs (TopicProduceResponse0.sized version) t.Responses)
    |>.andThen (Grows.onlyIf (Grows.add (sized_int32 t.ThrottleTimeMs))))
theorem ProduceResponse.reads (version : Int16) (t : ProduceResponse) (h : t.Fits version) (t0 : ProduceResponse) :
    Reads (ProduceResponse.decode version t0) (ProduceResponse.wire version t) (t.seen version t0) :=
  ((Step.structs (get := fun (t : ProduceResponse) => t.Responses) (set := fun (t : ProduceResponse) x => { t with Responses := x }) (fun x hx => TopicProduceResponse0.reads version x hx {}) h.Responses)
    |>.andThen (Step.optField (c := version ≥ 1) (set := fun (t : ProduceResponse) x => { t with ThrottleTimeMs := x }) (·.ThrottleTimeMs) (fun _ => rfl) fun _ => reads_int32 t.ThrottleTimeMs) : Step _ _ _) t0
theorem ProduceResponse.tame (version : Int16) (t0 : ProduceResponse) : Tame (ProduceResponse.decode version t0) :=
  ((TameStep.structs (TopicProduceResponse0.tame version {}))
    |>.andThen (TameStep.onlyIf (TameStep.field tame_int32)) : TameStep _) t0
theorem ProduceResponse.calm (version : Int16) (t0 : ProduceResponse) :
    Calm (ProduceResponse.decode version t0) (fun _ => True) :=
  ((CalmStep.structs (TopicProduceResponse0.tame version {}) (TopicProduceResponse0.calm version {}))
    |>.andThen (CalmStep.onlyIf (CalmStep.field tame_int32 calm_int32)) : CalmStep _).2 t0
theorem ProduceResponse.canon (version : Int16) (t : ProduceResponse) (h : t.Canon version) :
    t.seen version {} = t :=
  ProduceResponse.ext (canon_structs (TopicProduceResponse0.canon version) h.Responses) (canon_opt h.ThrottleTimeMs)
theorem ProduceResponse.again (version : Int16) (t t0 : ProduceResponse) :
    ProduceResponse.wire version (t.seen version t0) = ProduceResponse.wire version t :=
  app_congr (again_structs (fun x => TopicProduceResponse0.again version x {}) t.Responses) (again_opt Wire.int32 t.ThrottleTimeMs t0.ThrottleTimeMs)
theorem ProduceResponse.lawful : Lawful ProduceResponse.type ProduceResponse.layout :=
  ⟨ProduceResponse.emits, ProduceResponse.sized, ProduceResponse.reads, ProduceResponse.tame, ProduceResponse.calm, ProduceResponse.canon, ProduceResponse.again⟩

end Kafka.Msg
