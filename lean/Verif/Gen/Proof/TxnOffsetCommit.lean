import Verif.Message.StepLemmas
import Verif.Gen.Spec.TxnOffsetCommit
/-!
Generated by tools/gen_messages.py: laws of the TxnOffsetCommit messages.
-/
namespace Kafka.Msg

theorem TxnOffsetCommitRequestPartition28.emits (version : Int16) (t : TxnOffsetCommitRequestPartition28) :
    Emits (TxnOffsetCommitRequestPartition28.encode version t) (TxnOffsetCommitRequestPartition28.wire version t) :=
  (emits_int32 t.PartitionIndex)
    |>.andThen (emits_int64 t.CommittedOffset)
    |>.andThen (Emits.onlyIf (emits_int32 t.CommittedLeaderEpoch))
    |>.andThen (emits_string t.CommittedMetadata)
theorem TxnOffsetCommitRequestPartition28.sized (version : Int16) (t : TxnOffsetCommitRequestPartition28) :
    Sized (TxnOffsetCommitRequestPartition28.size version t) (TxnOffsetCommitRequestPartition28.wire version t) :=
  Grows.sized ((Grows.add (sized_int32 t.PartitionIndex))
    |>.andThen (Grows.add (sized_int64 t.CommittedOffset))
    |>.andThen (Grows.onlyIf (Grows.add (sized_int32 t.CommittedLeaderEpoch)))
    |>.andThen (Grows.add (sized_string t.CommittedMetadata)))
theorem TxnOffsetCommitRequestPartition28.reads (version : Int16) (t : TxnOffsetCommitRequestPartition28) (h : t.Fits version) (t0 : TxnOffsetCommitRequestPartition28) :
    Reads (TxnOffsetCommitRequestPartition28.decode version t0) (TxnOffsetCommitRequestPartition28.wire version t) (t.seen version t0) :=
  ((Step.field (set := fun (t : TxnOffsetCommitRequestPartition28) x => { t with PartitionIndex := x }) (reads_int32 t.PartitionIndex))
    |>.andThen (Step.field (set := fun (t : TxnOffsetCommitRequestPartition28) x => { t with CommittedOffset := x }) (reads_int64 t.CommittedOffset))
    |>.andThen (Step.optField (c := version ≥ 2) (set := fun (t : TxnOffsetCommitRequestPartition28) x => { t with CommittedLeaderEpoch := x }) (·.CommittedLeaderEpoch) (fun _ => rfl) fun _ => reads_int32 t.CommittedLeaderEpoch)
    |>.andThen (Step.field (set := fun (t : TxnOffsetCommitRequestPartition28) x => { t with CommittedMetadata := x }) (reads_string h.CommittedMetadata)) : Step _ _ _) t0
theorem TxnOffsetCommitRequestPartition28.tame (version : Int16) (t0 : TxnOffsetCommitRequestPartition28) : Tame (TxnOffsetCommitRequestPartition28.decode version t0) :=
  ((TameStep.field tame_int32)
    |>.andThen (TameStep.field tame_int64)
    |>.andThen (TameStep.onlyIf (TameStep.field tame_int32))
    |>.andThen (TameStep.field tame_string) : TameStep _) t0
theorem TxnOffsetCommitRequestPartition28.calm (version : Int16) (t0 : TxnOffsetCommitRequestPartition28) :
    Calm (TxnOffsetCommitRequestPartition28.decode version t0) (fun _ => True) :=
  ((CalmStep.field tame_int32 calm_int32)
    |>.andThen (CalmStep.field tame_int64 calm_int64)
    |>.andThen (CalmStep.onlyIf (CalmStep.field tame_int32 calm_int32))
    |>.andThen (CalmStep.field tame_string calm_string) : CalmStep _).2 t0
theorem TxnOffsetCommitRequestPartition28.canon (version : Int16) (t : TxnOffsetCommitRequestPartition28) (h : t.Canon version) :
    t.seen version {} = t :=
  TxnOffsetCommitRequestPartition28.ext rfl rfl (canon_opt h.CommittedLeaderEpoch) rfl
theorem TxnOffsetCommitRequestPartition28.again (version : Int16) (t t0 : TxnOffsetCommitRequestPartition28) :
    TxnOffsetCommitRequestPartition28.wire version (t.seen version t0) = TxnOffsetCommitRequestPartition28.wire version t :=
  app_congr (app_congr (app_congr (rfl) (rfl)) (again_opt Wire.int32 t.CommittedLeaderEpoch t0.CommittedLeaderEpoch)) (rfl)
theorem TxnOffsetCommitRequestPartition28.lawful : Lawful TxnOffsetCommitRequestPartition28.type TxnOffsetCommitRequestPartition28.layout :=
  ⟨TxnOffsetCommitRequestPartition28.emits, TxnOffsetCommitRequestPartition28.sized, TxnOffsetCommitRequestPartition28.reads, TxnOffsetCommitRequestPartition28.tame, TxnOffsetCommitRequestPartition28.calm, TxnOffsetCommitRequestPartition28.canon, TxnOffsetCommitRequestPartition28.again⟩

theorem TxnOffsetCommitRequestTopic28.emits (version : Int16) (t : TxnOffsetCommitRequestTopic28) :
    Emits (TxnOffsetCommitRequestTopic28.encode version t) (TxnOffsetCommitRequestTopic28.wire version t) :=
  (emits_string t.Name)
    |>.andThen (emits_structs (TxnOffsetCommitRequestPartition28.emits version) t.Partitions)
theorem TxnOffsetCommitRequestTopic28.sized (version : Int16) (t : TxnOffsetCommitRequestTopic28) :
    Sized (TxnOffsetCommitRequestTopic28.size version t) (TxnOffsetCommitRequestTopic28.wire version t) :=
  Grows.sized ((Grows.add (sized_string t.Name))
    |>.andThen (Grows.structs (TxnOffsetCommitRequestPartition28.sized version) t.Partitions))
theorem TxnOffsetCommitRequestTopic28.reads (version : Int16) (t : TxnOffsetCommitRequestTopic28) (h : t.Fits version) (t0 : TxnOffsetCommitRequestTopic28) :
    Reads (TxnOffsetCommitRequestTopic28.decode version t0) (TxnOffsetCommitRequestTopic28.wire version t) (t.seen version t0) :=
  ((Step.field (set := fun (t : TxnOffsetCommitRequestTopic28) x => { t with Name := x }) (reads_string h.Name))
    |>.andThen (Step.structs (get := fun (t : TxnOffsetCommitRequestTopic28) => t.Partitions) (set := fun (t : TxnOffsetCommitRequestTopic28) x => { t with Partitions := x }) (fun x hx => TxnOffsetCommitRequestPartition28.reads version x hx {}) h.Partitions) : Step _ _ _) t0
theorem TxnOffsetCommitRequestTopic28.tame (version : Int16) (t0 : TxnOffsetCommitRequestTopic28) : Tame (TxnOffsetCommitRequestTopic28.decode version t0) :=
  ((TameStep.field tame_string)
    |>.andThen (TameStep.structs (TxnOffsetCommitRequestPartition28.tame version {})) : TameStep _) t0
theorem TxnOffsetCommitRequestTopic28.calm (version : Int16) (t0 : TxnOffsetCommitRequestTopic28) :
    Calm (TxnOffsetCommitRequestTopic28.decode version t0) (fun _ => True) :=
  ((CalmStep.field tame_string calm_string)
    |>.andThen (CalmStep.structs (TxnOffsetCommitRequestPartition28.tame version {}) (TxnOffsetCommitRequestPartition28.calm version {})) : CalmStep _).2 t0
theorem TxnOffsetCommitRequestTopic28.canon (version : Int16) (t : TxnOffsetCommitRequestTopic28) (h : t.Canon version) :
    t.seen version {} = t :=
  TxnOffsetCommitRequestTopic28.ext rfl (canon_structs (TxnOffsetCommitRequestPartition28.canon version) h.Partitions)
theorem TxnOffsetCommitRequestTopic28.again (version : Int16) (t t0 : TxnOffsetCommitRequestTopic28) :
    TxnOffsetCommitRequestTopic28.wire version (t.seen version t0) = TxnOffsetCommitRequestTopic28.wire version t :=
  app_congr (rfl) (again_structs (fun x => TxnOffsetCommitRequestPartition28.again version x {}) t.Partitions)
theorem TxnOffsetCommitRequestTopic28.lawful : Lawful TxnOffsetCommitRequestTopic28.type TxnOffsetCommitRequestTopic28.layout :=
  ⟨TxnOffsetCommitRequestTopic28.emits, TxnOffsetCommitRequestTopic28.sized, TxnOffsetCommitRequestTopic28.reads, TxnOffsetCommitRequestTopic28.tame, TxnOffsetCommitRequestTopic28.calm, TxnOffsetCommitRequestTopic28.canon, TxnOffsetCommitRequestTopic28.again⟩

theorem TxnOffsetCommitRequest.emits (version : Int16) (t : TxnOffsetCommitRequest) :
    Emits (TxnOffsetCommitRequest.encode version t) (TxnOffsetCommitRequest.wire version t) :=
  (emits_string t.TransactionalId)
    |>.andThen (emits_string t.GroupId)
    |>.andThen (emits_int64 t.ProducerId)
    |>.andThen (emits_int16 t.ProducerEpoch)
    |>.andThen (emits_structs (TxnOffsetCommitRequestTopic28.emits version) t.Topics)
theorem TxnOffsetCommitRequest.sized (version : Int16) (t : TxnOffsetCommitRequest) :
    Sized (TxnOffsetCommitRequest.size version t) (TxnOffsetCommitRequest.wire version t) :=
  Grows.sized ((Grows.add (sized_string t.TransactionalId))
    |>.andThen (Grows.add (sized_string t.GroupId))
    |>.andThen (Grows.add (sized_int64 t.ProducerId))
    |>.andThen (Grows.add (sized_int16 t.ProducerEpoch))
    |>.andThen (Grows.structs (TxnOffsetCommitRequestTopic28.sized version) t.Topics))
theorem TxnOffsetCommitRequest.reads (version : Int16) (t : TxnOffsetCommitRequest) (h : t.Fits version) (t0 : TxnOffsetCommitRequest) :
    Reads (TxnOffsetCommitRequest.decode version t0) (TxnOffsetCommitRequest.wire version t) (t.seen version t0) :=
  ((Step.field (set := fun (t : TxnOffsetCommitRequest) x => { t with TransactionalId := x }) (reads_string h.TransactionalId))
    |>.andThen (Step.field (set := fun (t : TxnOffsetCommitRequest) x => { t with GroupId := x }) (reads_string h.GroupId))
    |>.andThen (Step.field (set := fun (t : TxnOffsetCommitRequest) x => { t with ProducerId := x }) (reads_int64 t.ProducerId))
    |>.andThen (Step.field (set := fun (t : TxnOffsetCommitRequest) x => { t with ProducerEpoch := x }) (reads_int16 t.ProducerEpoch))
    |>.andThen (Step.structs (get := fun (t : TxnOffsetCommitRequest) => t.Topics) (set := fun (t : TxnOffsetCommitRequest) x => { t with Topics := x }) (fun x hx => TxnOffsetCommitRequestTopic28.reads version x hx {}) h.Topics) : Step _ _ _) t0
theorem TxnOffsetCommitRequest.tame (version : Int16) (t0 : TxnOffsetCommitRequest) : Tame (TxnOffsetCommitRequest.decode version t0) :=
  ((TameStep.field tame_string)
    |>.andThen (TameStep.field tame_string)
    |>.andThen (TameStep.field tame_int64)
    |>.andThen (TameStep.field tame_int16)
    |>.andThen (TameStep.structs (TxnOffsetCommitRequestTopic28.tame version {})) : TameStep _) t0
theorem TxnOffsetCommitRequest.calm (version : Int16) (t0 : TxnOffsetCommitRequest) :
    Calm (TxnOffsetCommitRequest.decode version t0) (fun _ => True) :=
  ((CalmStep.field tame_string calm_string)
    |>.andThen (CalmStep.field tame_string calm_string)
    |>.andThen (CalmStep.field tame_int64 calm_int64)
    |>.andThen (CalmStep.field tame_int16 calm_int16)
    |>.andThen (CalmStep.structs (TxnOffsetCommitRequestTopic28.tame version {}) (TxnOffsetCommitRequestTopic28.calm version {})) : CalmStep _).2 t0
theorem TxnOffsetCommitRequest.canon (version : Int16) (t : TxnOffsetCommitRequest) (h : t.Canon version) :
    t.seen version {} = t :=
  TxnOffsetCommitRequest.ext rfl rfl rfl rfl (canon_structs (TxnOffsetCommitRequestTopic28.canon version) h.Topics)
theorem TxnOffsetCommitRequest.again (version : Int16) (t t0 : TxnOffsetCommitRequest) :
    TxnOffsetCommitRequest.wire version (t.seen version t0) = TxnOffsetCommitRequest.wire version t :=
  app_congr (app_congr (app_congr (app_congr (rfl) (rfl)) (rfl)) (rfl)) (again_structs (fun x => TxnOffsetCommitRequestTopic28.again version x {}) t.Topics)
theorem TxnOffsetCommitRequest.lawful : Lawful TxnOffsetCommitRequest.type TxnOffsetCommitRequest.layout :=
  ⟨TxnOffsetCommitRequest.emits, TxnOffsetCommitRequest.sized, TxnOffsetCommitRequest.reads, TxnOffsetCommitRequest.tame, TxnOffsetCommitRequest.calm, TxnOffsetCommitRequest.canon, TxnOffsetCommitRequest.again⟩

theorem TxnOffsetCommitResponsePartition28.emits (version : Int16) (t : TxnOffsetCommitResponsePartition28) :
    Emits (TxnOffsetCommitResponsePartition28.encode version t) (TxnOffsetCommitResponsePartition28.wire version t) :=
  (emits_int32 t.PartitionIndex)
    |>.andThen (emits_int16 t.ErrorCode)
theorem TxnOffsetCommitResponsePartition28.sized (version : Int16) (t : TxnOffsetCommitResponsePartition28) :
    Sized (TxnOffsetCommitResponsePartition28.size version t) (TxnOffsetCommitResponsePartition28.wire version t) :=
  Grows.sized ((Grows.add (sized_int32 t.PartitionIndex))
    |>.andThen (Grows.add (sized_int16 t.ErrorCode)))
theorem TxnOffsetCommitResponsePartition28.reads (version : Int16) (t : TxnOffsetCommitResponsePartition28) (_h : t.Fits version) (t0 : TxnOffsetCommitResponsePartition28) :
    Reads (TxnOffsetCommitResponsePartition28.decode version t0) (TxnOffsetCommitResponsePartition28.wire version t) (t.seen version t0) :=
  ((Step.field (set := fun (t : TxnOffsetCommitResponsePartition28) x => { t with PartitionIndex := x }) (reads_int32 t.PartitionIndex))
    |>.andThen (Step.field (set := fun (t : TxnOffsetCommitResponsePartition28) x => { t with ErrorCode := x }) (reads_int16 t.ErrorCode)) : Step _ _ _) t0
theorem TxnOffsetCommitResponsePartition28.tame (version : Int16) (t0 : TxnOffsetCommitResponsePartition28) : Tame (TxnOffsetCommitResponsePartition28.decode version t0) :=
  ((TameStep.field tame_int32)
    |>.andThen (TameStep.field tame_int16) : TameStep _) t0
theorem TxnOffsetCommitResponsePartition28.calm (version : Int16) (t0 : TxnOffsetCommitResponsePartition28) :
    Calm (TxnOffsetCommitResponsePartition28.decode version t0) (fun _ => True) :=
  ((CalmStep.field tame_int32 calm_int32)
    |>.andThen (CalmStep.field tame_int16 calm_int16) : CalmStep _).2 t0
theorem TxnOffsetCommitResponsePartition28.canon (version : Int16) (t : TxnOffsetCommitResponsePartition28) (_h : t.Canon version) :
    t.seen version {} = t :=
  TxnOffsetCommitResponsePartition28.ext rfl rfl
theorem TxnOffsetCommitResponsePartition28.again (version : Int16) (t t0 : TxnOffsetCommitResponsePartition28) :
    TxnOffsetCommitResponsePartition28.wire version (t.seen version t0) = TxnOffsetCommitResponsePartition28.wire version t :=
  app_congr (rfl) (rfl)
theorem TxnOffsetCommitResponsePartition28.lawful : Lawful TxnOffsetCommitResponsePartition28.type TxnOffsetCommitResponsePartition28.layout :=
  ⟨TxnOffsetCommitResponsePartition28.emits, TxnOffsetCommitResponsePartition28.sized, TxnOffsetCommitResponsePartition28.reads, TxnOffsetCommitResponsePartition28.tame, TxnOffsetCommitResponsePartition28.calm, TxnOffsetCommitResponsePartition28.canon, TxnOffsetCommitResponsePartition28.again⟩

theorem TxnOffsetCommitResponseTopic28.emits (version : Int16) (t : TxnOffsetCommitResponseTopic28) :
    Emits (TxnOffsetCommitResponseTopic28.encode version t) (TxnOffsetCommitResponseTopic28.wire version t) :=
  (emits_string t.Name)
    |>.andThen (emits_structs (TxnOffsetCommitResponsePartition28.emits version) t.Partitions)
theorem TxnOffsetCommitResponseTopic28.sized (version : Int16) (t : TxnOffsetCommitResponseTopic28) :
    Sized (TxnOffsetCommitResponseTopic28.size version t) (TxnOffsetCommitResponseTopic28.wire version t) :=
  Grows.sized ((Grows.add (sized_string t.Name))
    |>.andThen (Grows.structs (TxnOffsetCommitResponsePartition28.sized version) t.Partitions))
theorem TxnOffsetCommitResponseTopic28.reads (version : Int16) (t : TxnOffsetCommitResponseTopic28) (h : t.Fits version) (t0 : TxnOffsetCommitResponseTopic28) :
    Reads (TxnOffsetCommitResponseTopic28.decode version t0) (TxnOffsetCommitResponseTopic28.wire version t) (t.seen version t0) :=
  ((Step.field (set := fun (t : TxnOffsetCommitResponseTopic28) x => { t with Name := x }) (reads_string h.Name))
    |>.andThen (Step.structs (get := fun (t : TxnOffsetCommitResponseTopic28) => t.Partitions) (set := fun (t : TxnOffsetCommitResponseTopic28) x => { t with Partitions := x }) (fun x hx => TxnOffsetCommitResponsePartition28.reads version x hx {}) h.Partitions) : Step _ _ _) t0
theorem TxnOffsetCommitResponseTopic28.tame (version : Int16) (t0 : TxnOffsetCommitResponseTopic28) : Tame (TxnOffsetCommitResponseTopic28.decode version t0) :=
  ((TameStep.field tame_string)
    |>.andThen (TameStep.structs (TxnOffsetCommitResponsePartition28.tame version {})) : TameStep _) t0
theorem TxnOffsetCommitResponseTopic28.calm (version : Int16) (t0 : TxnOffsetCommitResponseTopic28) :
    Calm (TxnOffsetCommitResponseTopic28.decode version t0) (fun _ => True) :=
  ((CalmStep.field tame_string calm_string)
    |>.andThen (CalmStep.structs (TxnOffsetCommitResponsePartition28.tame version {}) (TxnOffsetCommitResponsePartition28.calm version {})) : CalmStep _).2 t0
theorem TxnOffsetCommitResponseTopic28.canon (version : Int16) (t : TxnOffsetCommitResponseTopic28) (h : t.Canon version) :
    t.seen version {} = t :=
  TxnOffsetCommitResponseTopic28.ext rfl (canon_structs (TxnOffsetCommitResponsePartition28.canon version) h.Partitions)
theorem TxnOffsetCommitResponseTopic28.again (version : Int16) (t t0 : TxnOffsetCommitResponseTopic28) :
    TxnOffsetCommitResponseTopic28.wire version (t.seen version t0) = TxnOffsetCommitResponseTopic28.wire version t :=
  app_congr (rfl) (again_structs (fun x => TxnOffsetCommitResponsePartition28.again version x {}) t.Partitions)
theorem TxnOffsetCommitResponseTopic28.lawful : Lawful TxnOffsetCommitResponseTopic28.type TxnOffsetCommitResponseTopic28.layout :=
  ⟨TxnOffsetCommitResponseTopic28.emits, TxnOffsetCommitResponseTopic28.sized, TxnOffsetCommitResponseTopic28.reads, TxnOffsetCommitResponseTopic28.tame, TxnOffsetCommitResponseTopic28.calm, TxnOffsetCommitResponseTopic28.canon, TxnOffsetCommitResponseTopic28.again⟩

theorem TxnOffsetCommitResponse.emits (version : Int16) (t : TxnOffsetCommitResponse) :
    Emits (TxnOffsetCommitResponse.encode version t) (TxnOffsetCommitResponse.wire version t) :=
  (emits_int32 t.ThrottleTimeMs)
    |>.andThen (emits_structs (TxnOffsetCommitResponseTopic28.emits version) t.Topics)
theorem TxnOffsetCommitResponse.sized (version : Int16) (t : TxnOffsetCommitResponse) :
    Sized (TxnOffsetCommitResponse.size version t) (TxnOffsetCommitResponse.wire version t) :=
  Grows.sized ((Grows.add (sized_int32 t.ThrottleTimeMs))
    |>.andThen (Grows.structs (TxnOffsetCommitResponseTopic28.sized version) t.Topics))
theorem TxnOffsetCommitResponse.reads (version : Int16) (t : TxnOffsetCommitResponse) (h : t.Fits version) (t0 : TxnOffsetCommitResponse) :
    Reads (TxnOffsetCommitResponse.decode version t0) (TxnOffsetCommitResponse.wire version t) (t.seen version t0) :=
  ((Step.field (set := fun (t : TxnOffsetCommitResponse) x => { t with ThrottleTimeMs := x }) (reads_int32 t.ThrottleTimeMs))
    |>.andThen (Step.structs (get := fun (t : TxnOffsetCommitResponse) => t.Topics) (set := fun (t : TxnOffsetCommitResponse) x => { t with Topics := x }) (fun x hx => TxnOffsetCommitResponseTopic28.reads version x hx {}) h.Topics) : Step _ _ _) t0
theorem TxnOffsetCommitResponse.tame (version : Int16) (t0 : TxnOffsetCommitResponse) : Tame (TxnOffsetCommitResponse.decode version t0) :=
  ((TameStep.field tame_int32)
    |>.andThen (TameStep.structs (TxnOffsetCommitResponseTopic28.tame version {})) : TameStep _) t0
theorem TxnOffsetCommitResponse.calm (version : Int16) (t0 : TxnOffsetCommitResponse) :
    Calm (TxnOffsetCommitResponse.decode version t0) (fun _ => True) :=
  ((CalmStep.field tame_int32 calm_int32)
    |>.andThen (CalmStep.structs (TxnOffsetCommitResponseTopic28.tame version {}) (TxnOffsetCommitResponseTopic28.calm version {})) : CalmStep _).2 t0
theorem TxnOffsetCommitResponse.canon (version : Int16) (t : TxnOffsetCommitResponse) (h : t.Canon version) :
    t.seen version {} = t :=
  TxnOffsetCommitResponse.ext rfl (canon_structs (TxnOffsetCommitResponseTopic28.canon version) h.Topics)
theorem TxnOffsetCommitResponse.again (version : Int16) (t t0 : TxnOffsetCommitResponse) :
    TxnOffsetCommitResponse.wire version (t.seen version t0) = TxnOffsetCommitResponse.wire version t :=
  app_congr (rfl) (again_structs (fun x => TxnOffsetCommitResponseTopic28.again version x {}) t.Topics)
theorem TxnOffsetCommitResponse.lawful : Lawful TxnOffsetCommitResponse.type TxnOffsetCommitResponse.layout :=
  ⟨TxnOffsetCommitResponse.emits, TxnOffsetCommitResponse.sized, TxnOffsetCommitResponse.reads, TxnOffsetCommitResponse.tame, TxnOffsetCommitResponse.calm, TxnOffsetCommitResponse.canon, TxnOffsetCommitResponse.again⟩

end Kafka.Msg
