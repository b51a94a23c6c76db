import Verif.Message.StepLemmas
import Verif.Gen.Spec.Fetch
/-!
Generated by tools/gen_messages.py: laws of the Fetch messages.
-/
namespace Kafka.Msg

theorem FetchPartition1.emits (version : Int16) (t : FetchPartition1) :
    Emits (FetchPartition1.encode version t) (FetchPartition1.wire version t) :=
  (emits_int32 t.PartitionIndex)
    |>.andThen (Emits.onlyIf (emits_int32 t.CurrentLeaderEpoch))
    |>.andThen (emits_int64 t.FetchOffset)
    |>.andThen (Emits.onlyIf (emits_int64 t.LogStartOffset))
    |>.andThen (emits_int32 t.MaxBytes)
theorem FetchPartition1.sized (version : Int16) (t : FetchPartition1) :
    Sized (FetchPartition1.size version t) (FetchPartition1.wire version t) :=
  Grows.sized ((Grows.add (sized_int32 t.PartitionIndex))
    |>.andThen (Grows.onlyIf (Grows.add (sized_int32 t.CurrentLeaderEpoch)))
    |>.andThen (Grows.add (sized_int64 t.FetchOffset))
    |>.andThen (Grows.onlyIf (Grows.add (sized_int64 t.LogStartOffset)))
    |>.andThen (Grows.add (sized_int32 t.MaxBytes)))
theorem FetchPartition1.reads (version : Int16) (t : FetchPartition1) (_h : t.Fits version) (t0 : FetchPartition1) :
    Reads (FetchPartition1.decode version t0) (FetchPartition1.wire version t) (t.seen version t0) :=
  ((Step.field (set := fun (t : FetchPartition1) x => { t with PartitionIndex := x }) (reads_int32 t.PartitionIndex))
    |>.andThen (Step.optField (c := version ≥ 9) (set := fun (t : FetchPartition1) x => { t with CurrentLeaderEpoch := x }) (·.CurrentLeaderEpoch) (fun _ => rfl) fun _ => reads_int32 t.CurrentLeaderEpoch)
    |>.andThen (Step.field (set := fun (t : FetchPartition1) x => { t with FetchOffset := x }) (reads_int64 t.FetchOffset))
    |>.andThen (Step.optField (c := version ≥ 5) (set := fun (t : FetchPartition1) x => { t with LogStartOffset := x }) (·.LogStartOffset) (fun _ => rfl) fun _ => reads_int64 t.LogStartOffset)
    |>.andThen (Step.field (set := fun (t : FetchPartition1) x => { t with MaxBytes := x }) (reads_int32 t.MaxBytes)) : Step _ _ _) t0
theorem FetchPartition1.tame (version : Int16) (t0 : FetchPartition1) : Tame (FetchPartition1.decode version t0) :=
  ((TameStep.field tame_int32)
    |>.andThen (TameStep.onlyIf (TameStep.field tame_int32))
    |>.andThen (TameStep.field tame_int64)
    |>.andThen (TameStep.onlyIf (TameStep.field tame_int64))
    |>.andThen (TameStep.field tame_int32) : TameStep _) t0
theorem FetchPartition1.calm (version : Int16) (t0 : FetchPartition1) :
    Calm (FetchPartition1.decode version t0) (fun _ => True) :=
  ((CalmStep.field tame_int32 calm_int32)
    |>.andThen (CalmStep.onlyIf (CalmStep.field tame_int32 calm_int32))
    |>.andThen (CalmStep.field tame_int64 calm_int64)
    |>.andThen (CalmStep.onlyIf (CalmStep.field tame_int64 calm_int64))
    |>.andThen (CalmStep.field tame_int32 calm_int32) : CalmStep _).2 t0
theorem FetchPartition1.canon (version : Int16) (t : FetchPartition1) (h : t.Canon version) :
    t.seen version {} = t :=
  FetchPartition1.ext rfl (canon_opt h.CurrentLeaderEpoch) rfl (canon_opt h.LogStartOffset) rfl
theorem FetchPartition1.again (version : Int16) (t t0 : FetchPartition1) :
    FetchPartition1.wire version (t.seen version t0) = FetchPartition1.wire version t :=
  app_congr (app_congr (app_congr (app_congr (rfl) (again_opt Wire.int32 t.CurrentLeaderEpoch t0.CurrentLeaderEpoch)) (rfl)) (again_opt Wire.int64 t.LogStartOffset t0.LogStartOffset)) (rfl)
theorem FetchPartition1.lawful : Lawful FetchPartition1.type FetchPartition1.layout :=
  ⟨FetchPartition1.emits, FetchPartition1.sized, FetchPartition1.reads, FetchPartition1.tame, FetchPartition1.calm, FetchPartition1.canon, FetchPartition1.again⟩

theorem FetchableTopic1.emits (version : Int16) (t : FetchableTopic1) :
    Emits (FetchableTopic1.encode version t) (FetchableTopic1.wire version t) :=
  (emits_string t.Name)
    |>.andThen (emits_structs (FetchPartition1.emits version) t.FetchPartitions)
theorem FetchableTopic1.sized (version : Int16) (t : FetchableTopic1) :
    Sized (FetchableTopic1.size version t) (FetchableTopic1.wire version t) :=
  Grows.sized ((Grows.add (sized_string t.Name))
    |>.andThen (Grows.structs (FetchPartition1.sized version) t.FetchPartitions))
theorem FetchableTopic1.reads (version : Int16) (t : FetchableTopic1) (h : t.Fits version) (t0 : FetchableTopic1) :
    Reads (FetchableTopic1.decode version t0) (FetchableTopic1.wire version t) (t.seen version t0) :=
  ((Step.field (set := fun (t : FetchableTopic1) x => { t with Name := x }) (reads_string h.Name))
    |>.andThen (Step.structs (get := fun (t : FetchableTopic1) => t.FetchPartitions) (set := fun (t : FetchableTopic1) x => { t with FetchPartitions := x }) (fun x hx => FetchPartition1.reads version x hx {}) h.FetchPartitions) : Step _ _ _) t0
theorem FetchableTopic1.tame (version : Int16) (t0 : FetchableTopic1) : Tame (FetchableTopic1.decode version t0) :=
  ((TameStep.field tame_string)
    |>.andThen (TameStep.structs (FetchPartition1.tame version {})) : TameStep _) t0
theorem FetchableTopic1.calm (version : Int16) (t0 : FetchableTopic1) :
    Calm (FetchableTopic1.decode version t0) (fun _ => True) :=
  ((CalmStep.field tame_string calm_string)
    |>.andThen (CalmStep.structs (FetchPartition1.tame version {}) (FetchPartition1.calm version {})) : CalmStep _).2 t0
theorem FetchableTopic1.canon (version : Int16) (t : FetchableTopic1) (h : t.Canon version) :
    t.seen version {} = t :=
  FetchableTopic1.ext rfl (canon_structs (FetchPartition1.canon version) h.FetchPartitions)
theorem FetchableTopic1.again (version : Int16) (t t0 : FetchableTopic1) :
    FetchableTopic1.wire version (t.seen version t0) = FetchableTopic1.wire version t :=
  app_congr (rfl) (again_structs (fun x => FetchPartition1.again version x {}) t.FetchPartitions)
theorem FetchableTopic1.lawful : Lawful FetchableTopic1.type FetchableTopic1.layout :=
  ⟨FetchableTopic1.emits, FetchableTopic1.sized, FetchableTopic1.reads, FetchableTopic1.tame, FetchableTopic1.calm, FetchableTopic1.canon, FetchableTopic1.again⟩

theorem ForgottenTopic1.emits (version : Int16) (t : ForgottenTopic1) :
    Emits (ForgottenTopic1.encode version t) (ForgottenTopic1.wire version t) :=
  (Emits.onlyIf (emits_string t.Name))
    |>.andThen (Emits.onlyIf (emits_int32Array t.ForgottenPartitionIndexes))
theorem ForgottenTopic1.sized (version : Int16) (t : ForgottenTopic1) :
    Sized (ForgottenTopic1.size version t) (ForgottenTopic1.wire version t) :=
  Grows.sized ((Grows.onlyIf (Grows.add (sized_string t.Name)))
    |>.andThen (Grows.onlyIf (Grows.add (sized_int32Array t.ForgottenPartitionIndexes))))
theorem ForgottenTopic1.reads (version : Int16) (t : ForgottenTopic1) (h : t.Fits version) (t0 : ForgottenTopic1) :
    Reads (ForgottenTopic1.decode version t0) (ForgottenTopic1.wire version t) (t.seen version t0) :=
  ((Step.optField (c := version ≥ 7) (set := fun (t : ForgottenTopic1) x => { t with Name := x }) (·.Name) (fun _ => rfl) fun hc => reads_string (h.Name hc))
    |>.andThen (Step.optField (c := version ≥ 7) (set := fun (t : ForgottenTopic1) x => { t with ForgottenPartitionIndexes := x }) (·.ForgottenPartitionIndexes) (fun _ => rfl) fun hc => reads_int32Array (h.ForgottenPartitionIndexes hc)) : Step _ _ _) t0
theorem ForgottenTopic1.tame (version : Int16) (t0 : ForgottenTopic1) : Tame (ForgottenTopic1.decode version t0) :=
  ((TameStep.onlyIf (TameStep.field tame_string))
    |>.andThen (TameStep.onlyIf (TameStep.field tame_int32Array)) : TameStep _) t0
theorem ForgottenTopic1.calm (version : Int16) (t0 : ForgottenTopic1) :
    Calm (ForgottenTopic1.decode version t0) (fun _ => True) :=
  ((CalmStep.onlyIf (CalmStep.field tame_string calm_string))
    |>.andThen (CalmStep.onlyIf (CalmStep.field tame_int32Array calm_int32Array)) : CalmStep _).2 t0
theorem ForgottenTopic1.canon (version : Int16) (t : ForgottenTopic1) (h : t.Canon version) :
    t.seen version {} = t :=
  ForgottenTopic1.ext (canon_opt h.Name) (canon_opt h.ForgottenPartitionIndexes)
theorem ForgottenTopic1.again (version : Int16) (t t0 : ForgottenTopic1) :
    ForgottenTopic1.wire version (t.seen version t0) = ForgottenTopic1.wire version t :=
  app_congr (again_opt Wire.string t.Name t0.Name) (again_opt Wire.int32Array t.ForgottenPartitionIndexes t0.ForgottenPartitionIndexes)
theorem ForgottenTopic1.lawful : Lawful ForgottenTopic1.type ForgottenTopic1.layout :=
  ⟨ForgottenTopic1.emits, ForgottenTopic1.sized, ForgottenTopic1.reads, ForgottenTopic1.tame, ForgottenTopic1.calm, ForgottenTopic1.canon, ForgottenTopic1.again⟩

theorem FetchRequest.emits (version : Int16) (t : FetchRequest) :
    Emits (FetchRequest.encode version t) (FetchRequest.wire version t) :=
  (emits_int32 t.ReplicaId)
    |>.andThen (emits_int32 t.MaxWait)
    |>.andThen (emits_int32 t.MinBytes)
    |>.andThen (Emits.onlyIf (emits_int32 t.MaxBytes))
    |>.andThen (Emits.onlyIf (emits_int8 t.IsolationLevel))
    |>.andThen (Emits.onlyIf (emits_int32 t.SessionId))
    |>.andThen (Emits.onlyIf (emits_int32 t.Epoch))
    |>.andThen (emits_structs (FetchableTopic1.emits version) t.Topics)
    |>.andThen (Emits.onlyIf (emits_structs (ForgottenTopic1.emits version) t.Forgotten))
    |>.andThen (Emits.onlyIf (emits_string t.RackId))
theorem FetchRequest.sized (version : Int16) (t : FetchRequest) :
    Sized (FetchRequest.size version t) (FetchRequest.wire version t) :=
  Grows.sized ((Grows.add (sized_int32 t.ReplicaId))
    |>.andThen (Grows.add (sized_int32 t.MaxWait))
    |>.andThen (Grows.add (sized_int32 t.MinBytes))
    |>.andThen (Grows.onlyIf (Grows.add (sized_int32 t.MaxBytes)))
    |>.andThen (Grows.onlyIf (Grows.add (sized_int8 t.IsolationLevel)))
    |>.andThen (Grows.onlyIf (Grows.add (sized_int32 t.SessionId)))
    |>.andThen (Grows.onlyIf (Grows.add (sized_int32 t.Epoch)))
    |>.andThen (Grows.structs (FetchableTopic1.sized version) t.Topics)
    |>.andThen (Grows.onlyIf (Grows.structs (ForgottenTopic1.sized version) t.Forgotten))
    |>.andThen (Grows.onlyIf (Grows.add (sized_string t.RackId))))
theorem FetchRequest.reads (version : Int16) (t : FetchRequest) (h : t.Fits version) (t0 : FetchRequest) :
    Reads (FetchRequest.decode version t0) (FetchRequest.wire version t) (t.seen version t0) :=
  ((Step.field (set := fun (t : FetchRequest) x => { t with ReplicaId := x }) (reads_int32 t.ReplicaId))
    |>.andThen (Step.field (set := fun (t : FetchRequest) x => { t with MaxWait := x }) (reads_int32 t.MaxWait))
    |>.andThen (Step.field (set := fun (t : FetchRequest) x => { t with MinBytes := x }) (reads_int32 t.MinBytes))
    |>.andThen (Step.optField (c := version ≥ 3) (set := fun (t : FetchRequest) x => { t with MaxBytes := x }) (·.MaxBytes) (fun _ => rfl) fun _ => reads_int32 t.MaxBytes)
    |>.andThen (Step.optField (c := version ≥ 4) (set := fun (t : FetchRequest) x => { t with IsolationLevel := x }) (·.IsolationLevel) (fun _ => rfl) fun _ => reads_int8 t.IsolationLevel)
    |>.andThen (Step.optField (c := version ≥ 7) (set := fun (t : FetchRequest) x => { t with SessionId := x }) (·.SessionId) (fun _ => rfl) fun _ => reads_int32 t.SessionId)
    |>.andThen (Step.optField (c := version ≥ 7) (set := fun (t : FetchRequest) x => { t with Epoch := x }) (·.Epoch) (fun _ => rfl) fun _ => reads_int32 t.Epoch)
    |>.andThen (Step.structs (get := fun (t : FetchRequest) => t.Topics) (set := fun (t : FetchRequest) x => { t with Topics := x }) (fun x hx => FetchableTopic1.reads version x hx {}) h.Topics)
    |>.andThen (Step.optStructs (c := version ≥ 7) (get := fun (t : FetchRequest) => t.Forgotten) (set := fun (t : FetchRequest) x => { t with Forgotten := x }) (fun _ => rfl) (fun x hx => ForgottenTopic1.reads version x hx {}) h.Forgotten)
    |>.andThen (Step.optField (c := version ≥ 11) (set := fun (t : FetchRequest) x => { t with RackId := x }) (·.RackId) (fun _ => rfl) fun hc => reads_string (h.RackId hc)) : Step _ _ _) t0
theorem FetchRequest.tame (version : Int16) (t0 : FetchRequest) : Tame (FetchRequest.decode version t0) :=
  ((TameStep.field tame_int32)
    |>.andThen (TameStep.field tame_int32)
    |>.andThen (TameStep.field tame_int32)
    |>.andThen (TameStep.onlyIf (TameStep.field tame_int32))
    |>.andThen (TameStep.onlyIf (TameStep.field tame_int8))
    |>.andThen (TameStep.onlyIf (TameStep.field tame_int32))
    |>.andThen (TameStep.onlyIf (TameStep.field tame_int32))
    |>.andThen (TameStep.structs (FetchableTopic1.tame version {}))
    |>.andThen (TameStep.onlyIf (TameStep.structs (ForgottenTopic1.tame version {})))
    |>.andThen (TameStep.onlyIf (TameStep.field tame_string)) : TameStep _) t0
theorem FetchRequest.calm (version : Int16) (t0 : FetchRequest) :
    Calm (FetchRequest.decode version t0) (fun _ => True) :=
  ((CalmStep.field tame_int32 calm_int32)
    |>.andThen (CalmStep.field tame_int32 calm_int32)
    |>.andThen (CalmStep.field tame_int32 calm_int32)
    |>.andThen (CalmStep.onlyIf (CalmStep.field tame_int32 calm_int32))
    |>.andThen (CalmStep.onlyIf (CalmStep.field tame_int8 calm_int8))
    |>.andThen (CalmStep.onlyIf (CalmStep.field tame_int32 calm_int32))
    |>.andThen (CalmStep.onlyIf (CalmStep.field tame_int32 calm_int32))
    |>.andThen (CalmStep.structs (FetchableTopic1.tame version {}) (FetchableTopic1.calm version {}))
    |>.andThen (CalmStep.onlyIf (CalmStep.structs (ForgottenTopic1.tame version {}) (ForgottenTopic1.calm version {})))
    |>.andThen (CalmStep.onlyIf (CalmStep.field tame_string calm_string)) : CalmStep _).2 t0
theorem FetchRequest.canon (version : Int16) (t : FetchRequest) (h : t.Canon version) :
    t.seen version {} = t :=
  FetchRequest.ext rfl rfl rfl (canon_opt h.MaxBytes) (canon_opt h.IsolationLevel) (canon_opt h.SessionId) (canon_opt h.Epoch) (canon_structs (FetchableTopic1.canon version) h.Topics) (canon_optStructs (ForgottenTopic1.canon version) h.Forgotten.1 h.Forgotten.2) (canon_opt h.RackId)
theorem FetchRequest.again (version : Int16) (t t0 : FetchRequest) :
    FetchRequest.wire version (t.seen version t0) = FetchRequest.wire version t :=
  app_congr (app_congr (app_congr (app_congr (app_congr (app_congr (app_congr (app_congr (app_congr (rfl) (rfl)) (rfl)) (again_opt Wire.int32 t.MaxBytes t0.MaxBytes)) (again_opt Wire.int8 t.IsolationLevel t0.IsolationLevel)) (again_opt Wire.int32 t.SessionId t0.SessionId)) (again_opt Wire.int32 t.Epoch t0.Epoch)) (again_structs (fun x => FetchableTopic1.again version x {}) t.Topics)) (again_optStructs (fun x => ForgottenTopic1.again version x {}) t.Forgotten t0.Forgotten)) (again_opt Wire.string t.RackId t0.RackId)
theorem FetchRequest.lawful : Lawful FetchRequest.type FetchRequest.layout :=
  ⟨FetchRequest.emits, FetchRequest.sized, FetchRequest.reads, FetchRequest.tame, FetchRequest.calm, FetchRequest.canon, FetchRequest.again⟩

theorem AbortedTransaction1.emits (version : Int16) (t : AbortedTransaction1) :
    Emits (AbortedTransaction1.encode version t) (AbortedTransaction1.wire version t) :=
  (Emits.onlyIf (emits_int64 t.ProducerId))
    |>.andThen (Emits.onlyIf (emits_int64 t.FirstOffset))
theorem AbortedTransaction1.sized (version : Int16) (t : AbortedTransaction1) :
    Sized (AbortedTransaction1.size version t) (AbortedTransaction1.wire version t) :=
  Grows.sized ((Grows.onlyIf (Grows.add (sized_int64 t.ProducerId)))
    |>.andThen (Grows.onlyIf (Grows.add (sized_int64 t.FirstOffset))))
theorem AbortedTransaction1.reads (version : Int16) (t : AbortedTransaction1) (_h : t.Fits version) (t0 : AbortedTransaction1) :
    Reads (AbortedTransaction1.decode version t0) (AbortedTransaction1.wire version t) (t.seen version t0) :=
  ((Step.optField (c := version ≥ 4) (set := fun (t : AbortedTransaction1) x => { t with ProducerId := x }) (·.ProducerId) (fun _ => rfl) fun _ => reads_int64 t.ProducerId)
    |>.andThen (Step.optField (c := version ≥ 4) (set := fun (t : AbortedTransaction1) x => { t with FirstOffset := x }) (·.FirstOffset) (fun _ => rfl) fun _ => reads_int64 t.FirstOffset) : Step _ _ _) t0
theorem AbortedTransaction1.tame (version : Int16) (t0 : AbortedTransaction1) : Tame (AbortedTransaction1.decode version t0) :=
  ((TameStep.onlyIf (TameStep.field tame_int64))
    |>.andThen (TameStep.onlyIf (TameStep.field tame_int64)) : TameStep _) t0
theorem AbortedTransaction1.calm (version : Int16) (t0 : AbortedTransaction1) :
    Calm (AbortedTransaction1.decode version t0) (fun _ => True) :=
  ((CalmStep.onlyIf (CalmStep.field tame_int64 calm_int64))
    |>.andThen (CalmStep.onlyIf (CalmStep.field tame_int64 calm_int64)) : CalmStep _).2 t0
theorem AbortedTransaction1.canon (version : Int16) (t : AbortedTransaction1) (h : t.Canon version) :
    t.seen version {} = t :=
  AbortedTransaction1.ext (canon_opt h.ProducerId) (canon_opt h.FirstOffset)
theorem AbortedTransaction1.again (version : Int16) (t t0 : AbortedTransaction1) :
    AbortedTransaction1.wire version (t.seen version t0) = AbortedTransaction1.wire version t :=
  app_congr (again_opt Wire.int64 t.ProducerId t0.ProducerId) (again_opt Wire.int64 t.FirstOffset t0.FirstOffset)
theorem AbortedTransaction1.lawful : Lawful AbortedTransaction1.type AbortedTransaction1.layout :=
  ⟨AbortedTransaction1.emits, AbortedTransaction1.sized, AbortedTransaction1.reads, AbortedTransaction1.tame, AbortedTransaction1.calm, AbortedTransaction1.canon, AbortedTransaction1.again⟩

theorem FetchablePartitionResponse1.emits (version : Int16) (t : FetchablePartitionResponse1) :
    Emits (FetchablePartitionResponse1.encode version t) (FetchablePartitionResponse1.wire version t) :=
  (emits_int32 t.PartitionIndex)
    |>.andThen (emits_int16 t.ErrorCode)
    |>.andThen (emits_int64 t.HighWatermark)
    |>.andThen (Emits.onlyIf (emits_int64 t.LastStableOffset))
    |>.andThen (Emits.onlyIf (emits_int64 t.LogStartOffset))
    |>.andThen (Emits.onlyIf (emits_structs (AbortedTransaction1.emits version) t.Aborted))
    |>.andThen (Emits.onlyIf (emits_int32 t.PreferredReadReplica))
    |>.andThen (emits_bytes t.Records)
theorem FetchablePartitionResponse1.sized (version : Int16) (t : FetchablePartitionResponse1) :
    Sized (FetchablePartitionResponse1.size version t) (FetchablePartitionResponse1.wire version t) :=
  Grows.sized ((Grows.add (sized_int32 t.PartitionIndex))
    |>.andThen (Grows.add (sized_int16 t.ErrorCode))
    |>.andThen (Grows.add (sized_int64 t.HighWatermark))
    |>.andThen (Grows.onlyIf (Grows.add (sized_int64 t.LastStableOffset)))
    |>.andThen (Grows.onlyIf (Grows.add (sized_int64 t.LogStartOffset)))
    |>.andThen (Grows.onlyIf (Grows.structs (AbortedTransaction1.sized version) t.Aborted))
    |>.andThen (Grows.onlyIf (Grows.add (sized_int32 t.PreferredReadReplica)))
    |>.andThen (Grows.add (sized_bytes t.Records)))
theorem FetchablePartitionResponse1.reads (version : Int16) (t : FetchablePartitionResponse1) (h : t.Fits version) (t0 : FetchablePartitionResponse1) :
    Reads (FetchablePartitionResponse1.decode version t0) (FetchablePartitionResponse1.wire version t) (t.seen version t0) :=
  ((Step.field (set := fun (t : FetchablePartitionResponse1) x => { t with PartitionIndex := x }) (reads_int32 t.PartitionIndex))
    |>.andThen (Step.field (set := fun (t : FetchablePartitionResponse1) x => { t with ErrorCode := x }) (reads_int16 t.ErrorCode))
    |>.andThen (Step.field (set := fun (t : FetchablePartitionResponse1) x => { t with HighWatermark := x }) (reads_int64 t.HighWatermark))
    |>.andThen (Step.optField (c := version ≥ 4) (set := fun (t : FetchablePartitionResponse1) x => { t with LastStableOffset := x }) (·.LastStableOffset) (fun _ => rfl) fun _ => reads_int64 t.LastStableOffset)
    |>.andThen (Step.optField (c := version ≥ 5) (set := fun (t : FetchablePartitionResponse1) x => { t with LogStartOffset := x }) (·.LogStartOffset) (fun _ => rfl) fun _ => reads_int64 t.LogStartOffset)
    |>.andThen (Step.optStructs (c := version ≥ 4) (get := fun (t : FetchablePartitionResponse1) => t.Aborted) (set := fun (t : FetchablePartitionResponse1) x => { t with Aborted := x }) (fun _ => rfl) (fun x hx => AbortedTransaction1.reads version x hx {}) h.Aborted)
    |>.andThen (Step.optField (c := version ≥ 11) (set := fun (t : FetchablePartitionResponse1) x => { t with PreferredReadReplica := x }) (·.PreferredReadReplica) (fun _ => rfl) fun _ => reads_int32 t.PreferredReadReplica)
    |>.andThen (Step.field (set := fun (t : FetchablePartitionResponse1) x => { t with Records := x }) (reads_bytes h.Records)) : Step _ _ _) t0
theorem FetchablePartitionResponse1.tame (version : Int16) (t0 : FetchablePartitionResponse1) : Tame (FetchablePartitionResponse1.decode version t0) :=
  ((TameStep.field tame_int32)
    |>.andThen (TameStep.field tame_int16)
    |>.andThen (TameStep.field tame_int64)
    |>.andThen (TameStep.onlyIf (TameStep.field tame_int64))
    |>.andThen (TameStep.onlyIf (TameStep.field tame_int64))
    |>.andThen (TameStep.onlyIf (TameStep.structs (AbortedTransaction1.tame version {})))
    |>.andThen (TameStep.onlyIf (TameStep.field tame_int32))
    |>.andThen (TameStep.field tame_bytes) : TameStep _) t0
theorem FetchablePartitionResponse1.calm (version : Int16) (t0 : FetchablePartitionResponse1) :
    Calm (FetchablePartitionResponse1.decode version t0) (fun _ => True) :=
  ((CalmStep.field tame_int32 calm_int32)
    |>.andThen (CalmStep.field tame_int16 calm_int16)
    |>.andThen (CalmStep.field tame_int64 calm_int64)
    |>.andThen (CalmStep.onlyIf (CalmStep.field tame_int64 calm_int64))
    |>.andThen (CalmStep.onlyIf (CalmStep.field tame_int64 calm_int64))
    |>.andThen (CalmStep.onlyIf (CalmStep.structs (AbortedTransaction1.tame version {}) (AbortedTransaction1.calm version {})))
    |>.andThen (CalmStep.onlyIf (CalmStep.field tame_int32 calm_int32))
    |>.andThen (CalmStep.field tame_bytes calm_bytes) : CalmStep _).2 t0
theorem FetchablePartitionResponse1.canon (version : Int16) (t : FetchablePartitionResponse1) (h : t.Canon version) :
    t.seen version {} = t :=
  FetchablePartitionResponse1.ext rfl rfl rfl (canon_opt h.LastStableOffset) (canon_opt h.LogStartOffset) (canon_optStructs (AbortedTransaction1.canon version) h.Aborted.1 h.Aborted.2) (canon_opt h.PreferredReadReplica) (canon_nonNil h.Records)
theorem FetchablePartitionResponse1.again (version : Int16) (t t0 : FetchablePartitionResponse1) :
    FetchablePartitionResponse1.wire version (t.seen version t0) = FetchablePartitionResponse1.wire version t :=
  app_congr (app_congr (app_congr (app_congr (app_congr (app_congr (app_congr (rfl) (rfl)) (rfl)) (again_opt Wire.int64 t.LastStableOffset t0.LastStableOffset)) (again_opt Wire.int64 t.LogStartOffset t0.LogStartOffset)) (again_optStructs (fun x => AbortedTransaction1.again version x {}) t.Aborted t0.Aborted)) (again_opt Wire.int32 t.PreferredReadReplica t0.PreferredReadReplica)) (rfl)
theorem FetchablePartitionResponse1.lawful : Lawful FetchablePartitionResponse1.type FetchablePartitionResponse1.layout :=
  ⟨FetchablePartitionResponse1.emits, FetchablePartitionResponse1.sized, FetchablePartitionResponse1.reads, FetchablePartitionResponse1.tame, FetchablePartitionResponse1.calm, FetchablePartitionResponse1.canon, FetchablePartitionResponse1.again⟩

theorem FetchableTopicResponse1.emits (version : Int16) (t : FetchableTopicResponse1) :
    Emits (FetchableTopicResponse1.encode version t) (FetchableTopicResponse1.wire version t) :=
  (emits_string t.Name)
    |>.andThen (emits_structs (FetchablePartitionResponse1.emits version) t.Partitions)
theorem FetchableTopicResponse1.sized (version : Int16) (t : FetchableTopicResponse1) :
    Sized (FetchableTopicResponse1.size version t) (FetchableTopicResponse1.wire version t) :=
  Grows.sized ((Grows.add (sized_string t.Name))
    |>.andThen (Grows.structs (FetchablePartitionResponse1.sized version) t.Partitions))
theorem FetchableTopicResponse1.reads (version : Int16) (t : FetchableTopicResponse1) (h : t.Fits version) (t0 : FetchableTopicResponse1) :
    Reads (FetchableTopicResponse1.decode version t0) (FetchableTopicResponse1.wire version t) (t.seen version t0) :=
  ((Step.field (set := fun (t : FetchableTopicResponse1) x => { t with Name := x }) (reads_string h.Name))
    |>.andThen (Step.structs (get := fun (t : FetchableTopicResponse1) => t.Partitions) (set := fun (t : FetchableTopicResponse1) x => { t with Partitions := x }) (fun x hx => FetchablePartitionResponse1.reads version x hx {}) h.Partitions) : Step _ _ _) t0
theorem FetchableTopicResponse1.tame (version : Int16) (t0 : FetchableTopicResponse1) : Tame (FetchableTopicResponse1.decode version t0) :=
  ((TameStep.field tame_string)
    |>.andThen (TameStep.structs (FetchablePartitionResponse1.tame version {})) : TameStep _) t0
theorem FetchableTopicResponse1.calm (version : Int16) (t0 : FetchableTopicResponse1) :
    Calm (FetchableTopicResponse1.decode version t0) (fun _ => True) :=
  ((CalmStep.field tame_string calm_string)
    |>.andThen (CalmStep.structs (FetchablePartitionResponse1.tame version {}) (FetchablePartitionResponse1.calm version {})) : CalmStep _).2 t0
theorem FetchableTopicResponse1.canon (version : Int16) (t : FetchableTopicResponse1) (h : t.Canon version) :
    t.seen version {} = t :=
  FetchableTopicResponse1.ext rfl (canon_structs (FetchablePartitionResponse1.canon version) h.Partitions)
theorem FetchableTopicResponse1.again (version : Int16) (t t0 : FetchableTopicResponse1) :
    FetchableTopicResponse1.wire version (t.seen version t0) = FetchableTopicResponse1.wire version t :=
  app_congr (rfl) (again_structs (fun x => FetchablePartitionResponse1.again version x {}) t.Partitions)
theorem FetchableTopicResponse1.lawful : Lawful FetchableTopicResponse1.type FetchableTopicResponse1.layout :=
  ⟨FetchableTopicResponse1.emits, FetchableTopicResponse1.sized, FetchableTopicResponse1.reads, FetchableTopicResponse1.tame, FetchableTopicResponse1.calm, FetchableTopicResponse1.canon, FetchableTopicResponse1.again⟩

theorem FetchResponse.emits (version : Int16) (t : FetchResponse) :
    Emits (FetchResponse.encode version t) (FetchResponse.wire version t) :=
  (Emits.onlyIf (emits_int32 t.ThrottleTimeMs))
    |>.andThen (Emits.onlyIf (emits_int16 t.ErrorCode))
    |>.andThen (Emits.onlyIf (emits_int32 t.SessionId))
    |>.andThen (emits_structs (FetchableTopicResponse1.emits version) t.Topics)
theorem FetchResponse.sized (version : Int16) (t : FetchResponse) :
    Sized (FetchResponse.size version t) (FetchResponse.wire version t) :=
  Grows.sized ((Grows.onlyIf (Grows.add (sized_int32 t.ThrottleTimeMs)))
    |>.andThen (Grows.onlyIf (Grows.add (sized_int16 t.ErrorCode)))
    |>.andThen (Grows.onlyIf (Grows.add (sized_int32 t.SessionId)))
    |>.andThen (Grows.structs (FetchableTopicResponse1.sized version) t.Topics))
theorem FetchResponse.reads (version : Int16) (t : FetchResponse) (h : t.Fits version) (t0 : FetchResponse) :
    Reads (FetchResponse.decode version t0) (FetchResponse.wire version t) (t.seen version t0) :=
  ((Step.optField (c := version ≥ 1) (set := fun (t : FetchResponse) x => { t with ThrottleTimeMs := x }) (·.ThrottleTimeMs) (fun _ => rfl) fun _ => reads_int32 t.ThrottleTimeMs)
    |>.andThen (Step.optField (c := version ≥ 7) (set := fun (t : FetchResponse) x => { t with ErrorCode := x }) (·.ErrorCode) (fun _ => rfl) fun _ => reads_int16 t.ErrorCode)
    |>.andThen (Step.optField (c := version ≥ 7) (set := fun (t : FetchResponse) x => { t with SessionId := x }) (·.SessionId) (fun _ => rfl) fun _ => reads_int32 t.SessionId)
    |>.andThen (Step.structs (get := fun (t : FetchResponse) => t.Topics) (set := fun (t : FetchResponse) x => { t with Topics := x }) (fun x hx => FetchableTopicResponse1.reads version x hx {}) h.Topics) : Step _ _ _) t0
theorem FetchResponse.tame (version : Int16) (t0 : FetchResponse) : Tame (FetchResponse.decode version t0) :=
  ((TameStep.onlyIf (TameStep.field tame_int32))
    |>.andThen (TameStep.onlyIf (TameStep.field tame_int16))
    |>.andThen (TameStep.onlyIf (TameStep.field tame_int32))
    |>.andThen (TameStep.structs (FetchableTopicResponse1.tame version {})) : TameStep _) t0
theorem FetchResponse.calm (version : Int16) (t0 : FetchResponse) :
    Calm (FetchResponse.decode version t0) (fun _ => True) :=
  ((CalmStep.onlyIf (CalmStep.field tame_int32 calm_int32))
    |>.andThen (CalmStep.onlyIf (CalmStep.field tame_int16 calm_int16))
    |>.andThen (CalmStep.onlyIf (CalmStep.field tame_int32 calm_int32))
    |>.andThen (CalmStep.structs (FetchableTopicResponse1.tame version {}) (FetchableTopicResponse1.calm version {})) : CalmStep _).2 t0
theorem FetchResponse.canon (version : Int16) (t : FetchResponse) (h : t.Canon version) :
    t.seen version {} = t :=
  FetchResponse.ext (canon_opt h.ThrottleTimeMs) (canon_opt h.ErrorCode) (canon_opt h.SessionId) (canon_structs (FetchableTopicResponse1.canon version) h.Topics)
theorem FetchResponse.again (version : Int16) (t t0 : FetchResponse) :
    FetchResponse.wire version (t.seen version t0) = FetchResponse.wire version t :=
  app_congr (app_congr (app_congr (again_opt Wire.int32 t.ThrottleTimeMs t0.ThrottleTimeMs) (again_opt Wire.int16 t.ErrorCode t0.ErrorCode)) (again_opt Wire.int32 t.SessionId t0.SessionId)) (again_structs (fun x => FetchableTopicResponse1.again version x {}) t.Topics)
theorem FetchResponse.lawful : Lawful FetchResponse.type FetchResponse.layout :=
  ⟨FetchResponse.emits, FetchResponse.sized, FetchResponse.reads, FetchResponse.tame, FetchResponse.calm, FetchResponse.canon, FetchResponse.again⟩

end Kafka.Msg
