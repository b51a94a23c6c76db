import Verif.Message.StepLemmas
import Verif.Gen.Spec.InitProducerId
/-!
Generated by tools/gen_messages.py: laws of the InitProducerId messages.
-/
namespace Kafka.Msg

theorem InitProducerIdRequest.emits (version : Int16) (t : InitProducerIdRequest) :
    Emits (InitProducerIdRequest.encode version t) (InitProducerIdRequest.wire version t) :=
  (emits_string t.TransactionalId)
    |>.andThen (emits_int32 t.TransactionTimeoutMs)
theorem InitProducerIdRequest.sized (version : Int16) (t : InitProducerIdRequest) :
    Sized (InitProducerIdRequest.size version t) (InitProducerIdRequest.wire version t) :=
  Grows.sized ((Grows.add (sized_string t.TransactionalId))
    |>.andThen (Grows.add (sized_int32 t.TransactionTimeoutMs)))
theorem InitProducerIdRequest.reads (version : Int16) (t : InitProducerIdRequest) (h : t.Fits version) (t0 : InitProducerIdRequest) :
    Reads (InitProducerIdRequest.decode version t0) (InitProducerIdRequest.wire version t) (t.seen version t0) :=
  ((Step.field (set := fun (t : InitProducerIdRequest) x => { t with TransactionalId := x }) (reads_string h.TransactionalId))
    |>.andThen (Step.field (set := fun (t : InitProducerIdRequest) x => { t with TransactionTimeoutMs := x }) (reads_int32 t.TransactionTimeoutMs)) : Step _ _ _) t0
theorem InitProducerIdRequest.tame (version : Int16) (t0 : InitProducerIdRequest) : Tame (InitProducerIdRequest.decode version t0) :=
  ((TameStep.field tame_string)
    |>.andThen (TameStep.field tame_int32) : TameStep _) t0
theorem InitProducerIdRequest.calm (version : Int16) (t0 : InitProducerIdRequest) :
    Calm (InitProducerIdRequest.decode version t0) (fun _ => True) :=
  ((CalmStep.field tame_string calm_string)
    |>.andThen (CalmStep.field tame_int32 calm_int32) : CalmStep _).2 t0
theorem InitProducerIdRequest.canon (version : Int16) (t : InitProducerIdRequest) (_h : t.Canon version) :
    t.seen version {} = t :=
  InitProducerIdRequest.ext rfl rfl
theorem InitProducerIdRequest.again (version : Int16) (t t0 : InitProducerIdRequest) :
    InitProducerIdRequest.wire version (t.seen version t0) = InitProducerIdRequest.wire version t :=
  app_congr (rfl) (rfl)
theorem InitProducerIdRequest.lawful : Lawful InitProducerIdRequest.type InitProducerIdRequest.layout :=
  ⟨InitProducerIdRequest.emits, InitProducerIdRequest.sized, InitProducerIdRequest.reads, InitProducerIdRequest.tame, InitProducerIdRequest.calm, InitProducerIdRequest.canon, InitProducerIdRequest.again⟩

theorem InitProducerIdResponse.emits (version : Int16) (t : InitProducerIdResponse) :
    Emits (InitProducerIdResponse.encode version t) (InitProducerIdResponse.wire version t) :=
  (emits_int32 t.ThrottleTimeMs)
    |>.andThen (emits_int16 t.ErrorCode)
    |>.andThen (emits_int64 t.ProducerId)
    |>.andThen (emits_int16 t.ProducerEpoch)
theorem InitProducerIdResponse.sized (version : Int16) (t : InitProducerIdResponse) :
    Sized (InitProducerIdResponse.size version t) (InitProducerIdResponse.wire version t) :=
  Grows.sized ((Grows.add (sized_int32 t.ThrottleTimeMs))
    |>.andThen (Grows.add (sized_int16 t.ErrorCode))
    |>.andThen (Grows.add (sized_int64 t.ProducerId))
    |>.andThen (Grows.add (sized_int16 t.ProducerEpoch)))
theorem InitProducerIdResponse.reads (version : Int16) (t : InitProducerIdResponse) (_h : t.Fits version) (t0 : InitProducerIdResponse) :
    Reads (InitProducerIdResponse.decode version t0) (InitProducerIdResponse.wire version t) (t.seen version t0) :=
  ((Step.field (set := fun (t : InitProducerIdResponse) x => { t with ThrottleTimeMs := x }) (reads_int32 t.ThrottleTimeMs))
    |>.andThen (Step.field (set := fun (t : InitProducerIdResponse) x => { t with ErrorCode := x }) (reads_int16 t.ErrorCode))
    |>.andThen (Step.field (set := fun (t : InitProducerIdResponse) x => { t with ProducerId := x }) (reads_int64 t.ProducerId))
    |>.andThen (Step.field (set := fun (t : InitProducerIdResponse) x => { t with ProducerEpoch := x }) (reads_int16 t.ProducerEpoch)) : Step _ _ _) t0
theorem InitProducerIdResponse.tame (version : Int16) (t0 : InitProducerIdResponse) : Tame (InitProducerIdResponse.decode version t0) :=
  ((TameStep.field tame_int32)
    |>.andThen (TameStep.field tame_int16)
    |>.andThen (TameStep.field tame_int64)
    |>.andThen (TameStep.field tame_int16) : TameStep _) t0
theorem InitProducerIdResponse.calm (version : Int16) (t0 : InitProducerIdResponse) :
    Calm (InitProducerIdResponse.decode version t0) (fun _ => True) :=
  ((CalmStep.field tame_int32 calm_int32)
    |>.andThen (CalmStep.field tame_int16 calm_int16)
    |>.andThen (CalmStep.field tame_int64 calm_int64)
    |>.andThen (CalmStep.field tame_int16 calm_int16) : CalmStep _).2 t0
theorem InitProducerIdResponse.canon (version : Int16) (t : InitProducerIdResponse) (_h : t.Canon version) :
    t.seen version {} = t :=
  InitProducerIdResponse.ext rfl rfl rfl rfl
theorem InitProducerIdResponse.again (version : Int16) (t t0 : InitProducerIdResponse) :
    InitProducerIdResponse.wire version (t.seen version t0) = InitProducerIdResponse.wire version t :=
  app_congr (app_congr (app_congr (rfl) (rfl)) (rfl)) (rfl)
theorem InitProducerIdResponse.lawful : Lawful InitProducerIdResponse.type InitProducerIdResponse.layout :=
  ⟨InitProducerIdResponse.emits, InitProducerIdResponse.sized, InitProducerIdResponse.reads, InitProducerIdResponse.tame, InitProducerIdResponse.calm, InitProducerIdResponse.canon, InitProducerIdResponse.again⟩

end Kafka.Msg
