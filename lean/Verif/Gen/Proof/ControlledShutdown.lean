import Verif.Message.StepLemmas
import Verif.Gen.Spec.ControlledShutdown
/-!
Generated by tools/gen_messages.py: laws of the ControlledShutdown messages.
-/
namespace Kafka.Msg

theorem ControlledShutdownRequest.emits (version : Int16) (t : ControlledShutdownRequest) :
    Emits (ControlledShutdownRequest.encode version t) (ControlledShutdownRequest.wire version t) :=
  (emits_int32 t.BrokerId)
    |>.andThen (Emits.onlyIf (emits_int64 t.BrokerEpoch))
theorem ControlledShutdownRequest.sized (version : Int16) (t : ControlledShutdownRequest) :
    Sized (ControlledShutdownRequest.size version t) (ControlledShutdownRequest.wire version t) :=
  Grows.sized ((Grows.add (sized_int32 t.BrokerId))
    |>.andThen (Grows.onlyIf (Grows.add (sized_int64 t.BrokerEpoch))))
theorem ControlledShutdownRequest.reads (version : Int16) (t : ControlledShutdownRequest) (_h : t.Fits version) (t0 : ControlledShutdownRequest) :
    Reads (ControlledShutdownRequest.decode version t0) (ControlledShutdownRequest.wire version t) (t.seen version t0) :=
  ((Step.field (set := fun (t : ControlledShutdownRequest) x => { t with BrokerId := x }) (reads_int32 t.BrokerId))
    |>.andThen (Step.optField (c := version ≥ 2) (set := fun (t : ControlledShutdownRequest) x => { t with BrokerEpoch := x }) (·.BrokerEpoch) (fun _ => rfl) fun _ => reads_int64 t.BrokerEpoch) : Step _ _ _) t0
theorem ControlledShutdownRequest.tame (version : Int16) (t0 : ControlledShutdownRequest) : Tame (ControlledShutdownRequest.decode version t0) :=
  ((TameStep.field tame_int32)
    |>.andThen (TameStep.onlyIf (TameStep.field tame_int64)) : TameStep _) t0
theorem ControlledShutdownRequest.calm (version : Int16) (t0 : ControlledShutdownRequest) :
    Calm (ControlledShutdownRequest.decode version t0) (fun _ => True) :=
  ((CalmStep.field tame_int32 calm_int32)
    |>.andThen (CalmStep.onlyIf (CalmStep.field tame_int64 calm_int64)) : CalmStep _).2 t0
theorem ControlledShutdownRequest.canon (version : Int16) (t : ControlledShutdownRequest) (h : t.Canon version) :
    t.seen version {} = t :=
  ControlledShutdownRequest.ext rfl (canon_opt h.BrokerEpoch)
theorem ControlledShutdownRequest.again (version : Int16) (t t0 : ControlledShutdownRequest) :
    ControlledShutdownRequest.wire version (t.seen version t0) = ControlledShutdownRequest.wire version t :=
  app_congr (rfl) (again_opt Wire.int64 t.BrokerEpoch t0.BrokerEpoch)
theorem ControlledShutdownRequest.lawful : Lawful ControlledShutdownRequest.type ControlledShutdownRequest.layout :=
  ⟨ControlledShutdownRequest.emits, ControlledShutdownRequest.sized, ControlledShutdownRequest.reads, ControlledShutdownRequest.tame, ControlledShutdownRequest.calm, ControlledShutdownRequest.canon, ControlledShutdownRequest.again⟩

theorem RemainingPartition7.emits (version : Int16) (t : RemainingPartition7) :
    Emits (RemainingPartition7.encode version t) (RemainingPartition7.wire version t) :=
  (emits_string t.TopicName)
    |>.andThen (emits_int32 t.PartitionIndex)
theorem RemainingPartition7.sized (version : Int16) (t : RemainingPartition7) :
    Sized (RemainingPartition7.size version t) (RemainingPartition7.wire version t) :=
  Grows.sized ((Grows.add (sized_string t.TopicName))
    |>.andThen (Grows.add (sized_int32 t.PartitionIndex)))
theorem RemainingPartition7.reads (version : Int16) (t : RemainingPartition7) (h : t.Fits version) (t0 : RemainingPartition7) :
    Reads (RemainingPartition7.decode version t0) (RemainingPartition7.wire version t) (t.seen version t0) :=
  ((Step.field (set := fun (t : RemainingPartition7) x => { t with TopicName := x }) (reads_string h.TopicName))
    |>.andThen (Step.field (set := fun (t : RemainingPartition7) x => { t with PartitionIndex := x }) (reads_int32 t.PartitionIndex)) : Step _ _ _) t0
theorem RemainingPartition7.tame (version : Int16) (t0 : RemainingPartition7) : Tame (RemainingPartition7.decode version t0) :=
  ((TameStep.field tame_string)
    |>.andThen (TameStep.field tame_int32) : TameStep _) t0
theorem RemainingPartition7.calm (version : Int16) (t0 : RemainingPartition7) :
    Calm (RemainingPartition7.decode version t0) (fun _ => True) :=
  ((CalmStep.field tame_string calm_string)
    |>.andThen (CalmStep.field tame_int32 calm_int32) : CalmStep _).2 t0
theorem RemainingPartition7.canon (version : Int16) (t : RemainingPartition7) (_h : t.Canon version) :
    t.seen version {} = t :=
  RemainingPartition7.ext rfl rfl
theorem RemainingPartition7.again (version : Int16) (t t0 : RemainingPartition7) :
    RemainingPartition7.wire version (t.seen version t0) = RemainingPartition7.wire version t :=
  app_congr (rfl) (rfl)
theorem RemainingPartition7.lawful : Lawful RemainingPartition7.type RemainingPartition7.layout :=
  ⟨RemainingPartition7.emits, RemainingPartition7.sized, RemainingPartition7.reads, RemainingPartition7.tame, RemainingPartition7.calm, RemainingPartition7.canon, RemainingPartition7.again⟩

theorem ControlledShutdownResponse.emits (version : Int16) (t : ControlledShutdownResponse) :
    Emits (ControlledShutdownResponse.encode version t) (ControlledShutdownResponse.wire version t) :=
  (emits_int16 t.ErrorCode)
    |>.andThen (emits_structs (RemainingPartition7.emits version) t.RemainingPartitions)
theorem ControlledShutdownResponse.sized (version : Int16) (t : ControlledShutdownResponse) :
    Sized (ControlledShutdownResponse.size version t) (ControlledShutdownResponse.wire version t) :=
  Grows.sized ((Grows.add (sized_int16 t.ErrorCode))
    |>.andThen (Grows.structs (RemainingPartition7.sized version) t.RemainingPartitions))
theorem ControlledShutdownResponse.reads (version : Int16) (t : ControlledShutdownResponse) (h : t.Fits version) (t0 : ControlledShutdownResponse) :
    Reads (ControlledShutdownResponse.decode version t0) (ControlledShutdownResponse.wire version t) (t.seen version t0) :=
  ((Step.field (set := fun (t : ControlledShutdownResponse) x => { t with ErrorCode := x }) (reads_int16 t.ErrorCode))
    |>.andThen (Step.structs (get := fun (t : ControlledShutdownResponse) => t.RemainingPartitions) (set := fun (t : ControlledShutdownResponse) x => { t with RemainingPartitions := x }) (fun x hx => RemainingPartition7.reads version x hx {}) h.RemainingPartitions) : Step _ _ _) t0
theorem ControlledShutdownResponse.tame (version : Int16) (t0 : ControlledShutdownResponse) : Tame (ControlledShutdownResponse.decode version t0) :=
  ((TameStep.field tame_int16)
    |>.andThen (TameStep.structs (RemainingPartition7.tame version {})) : TameStep _) t0
theorem ControlledShutdownResponse.calm (version : Int16) (t0 : ControlledShutdownResponse) :
    Calm (ControlledShutdownResponse.decode version t0) (fun _ => True) :=
  ((CalmStep.field tame_int16 calm_int16)
    |>.andThen (CalmStep.structs (RemainingPartition7.tame version {}) (RemainingPartition7.calm version {})) : CalmStep _).2 t0
theorem ControlledShutdownResponse.canon (version : Int16) (t : ControlledShutdownResponse) (h : t.Canon version) :
    t.seen version {} = t :=
  ControlledShutdownResponse.ext rfl (canon_structs (RemainingPartition7.canon version) h.RemainingPartitions)
theorem ControlledShutdownResponse.again (version : Int16) (t t0 : ControlledShutdownResponse) :
    ControlledShutdownResponse.wire version (t.seen version t0) = ControlledShutdownResponse.wire version t :=
  app_congr (rfl) (again_structs (fun x => RemainingPartition7.again version x {}) t.RemainingPartitions)
theorem ControlledShutdownResponse.lawful : Lawful ControlledShutdownResponse.type ControlledShutdownResponse.layout :=
  ⟨ControlledShutdownResponse.emits, ControlledShutdownResponse.sized, ControlledShutdownResponse.reads, ControlledShutdownResponse.tame, ControlledShutdownResponse.calm, ControlledShutdownResponse.canon, ControlledShutdownResponse.again⟩

end Kafka.Msg
