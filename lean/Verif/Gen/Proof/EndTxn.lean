import Verif.Message.StepLemmas
import Verif.Gen.Spec.EndTxn
/-!
Generated by tools/gen_messages.py: laws of the EndTxn messages.
-/
namespace Kafka.Msg

theorem EndTxnRequest.emits (version : Int16) (t : EndTxnRequest) :
    Emits (EndTxnRequest.encode version t) (EndTxnRequest.wire version t) :=
  (emits_string t.TransactionalId)
    |>.andThen (emits_int64 t.ProducerId)
    |>.andThen (emits_int16 t.ProducerEpoch)
    |>.andThen (emits_bool t.Committed)
theorem EndTxnRequest.sized (version : Int16) (t : EndTxnRequest) :
    Sized (EndTxnRequest.size version t) (EndTxnRequest.wire version t) :=
  Grows.sized ((Grows.add (sized_string t.TransactionalId))
    |>.andThen (Grows.add (sized_int64 t.ProducerId))
    |>.andThen (Grows.add (sized_int16 t.ProducerEpoch))
    |>.andThen (Grows.add (sized_bool t.Committed)))
theorem EndTxnRequest.reads (version : Int16) (t : EndTxnRequest) (h : t.Fits version) (t0 : EndTxnRequest) :
    Reads (EndTxnRequest.decode version t0) (EndTxnRequest.wire version t) (t.seen version t0) :=
  ((Step.field (set := fun (t : EndTxnRequest) x => { t with TransactionalId := x }) (reads_string h.TransactionalId))
    |>.andThen (Step.field (set := fun (t : EndTxnRequest) x => { t with ProducerId := x }) (reads_int64 t.ProducerId))
    |>.andThen (Step.field (set := fun (t : EndTxnRequest) x => { t with ProducerEpoch := x }) (reads_int16 t.ProducerEpoch))
    |>.andThen (Step.field (set := fun (t : EndTxnRequest) x => { t with Committed := x }) (reads_bool t.Committed)) : Step _ _ _) t0
theorem EndTxnRequest.tame (version : Int16) (t0 : EndTxnRequest) : Tame (EndTxnRequest.decode version t0) :=
  ((TameStep.field tame_string)
    |>.andThen (TameStep.field tame_int64)
    |>.andThen (TameStep.field tame_int16)
    |>.andThen (TameStep.field tame_bool) : TameStep _) t0
theorem EndTxnRequest.calm (version : Int16) (t0 : EndTxnRequest) :
    Calm (EndTxnRequest.decode version t0) (fun _ => True) :=
  ((CalmStep.field tame_string calm_string)
    |>.andThen (CalmStep.field tame_int64 calm_int64)
    |>.andThen (CalmStep.field tame_int16 calm_int16)
    |>.andThen (CalmStep.field tame_bool calm_bool) : CalmStep _).2 t0
theorem EndTxnRequest.canon (version : Int16) (t : EndTxnRequest) (_h : t.Canon version) :
    t.seen version {} = t :=
  EndTxnRequest.ext rfl rfl rfl rfl
theorem EndTxnRequest.again (version : Int16) (t t0 : EndTxnRequest) :
    EndTxnRequest.wire version (t.seen version t0) = EndTxnRequest.wire version t :=
  app_congr (app_congr (app_congr (rfl) (rfl)) (rfl)) (rfl)
theorem EndTxnRequest.lawful : Lawful EndTxnRequest.type EndTxnRequest.layout :=
  ⟨EndTxnRequest.emits, EndTxnRequest.sized, EndTxnRequest.reads, EndTxnRequest.tame, EndTxnRequest.calm, EndTxnRequest.canon, EndTxnRequest.again⟩

theorem EndTxnResponse.emits (version : Int16) (t : EndTxnResponse) :
    Emits (EndTxnResponse.encode version t) (EndTxnResponse.wire version t) :=
  (emits_int32 t.ThrottleTimeMs)
    |>.andThen (emits_int16 t.ErrorCode)
theorem EndTxnResponse.sized (version : Int16) (t : EndTxnResponse) :
    Sized (EndTxnResponse.size version t) (EndTxnResponse.wire version t) :=
  Grows.sized ((Grows.add (sized_int32 t.ThrottleTimeMs))
    |>.andThen (Grows.add (sized_int16 t.ErrorCode)))
theorem EndTxnResponse.reads (version : Int16) (t : EndTxnResponse) (_h : t.Fits version) (t0 : EndTxnResponse) :
    Reads (EndTxnResponse.decode version t0) (EndTxnResponse.wire version t) (t.seen version t0) :=
  ((Step.field (set := fun (t : EndTxnResponse) x => { t with ThrottleTimeMs := x }) (reads_int32 t.ThrottleTimeMs))
    |>.andThen (Step.field (set := fun (t : EndTxnResponse) x => { t with ErrorCode := x }) (reads_int16 t.ErrorCode)) : Step _ _ _) t0
theorem EndTxnResponse.tame (version : Int16) (t0 : EndTxnResponse) : Tame (EndTxnResponse.decode version t0) :=
  ((TameStep.field tame_int32)
    |>.andThen (TameStep.field tame_int16) : TameStep _) t0
theorem EndTxnResponse.calm (version : Int16) (t0 : EndTxnResponse) :
    Calm (EndTxnResponse.decode version t0) (fun _ => True) :=
  ((CalmStep.field tame_int32 calm_int32)
    |>.andThen (CalmStep.field tame_int16 calm_int16) : CalmStep _).2 t0
theorem EndTxnResponse.canon (version : Int16) (t : EndTxnResponse) (_h : t.Canon version) :
    t.seen version {} = t :=
  EndTxnResponse.ext rfl rfl
theorem EndTxnResponse.again (version : Int16) (t t0 : EndTxnResponse) :
    EndTxnResponse.wire version (t.seen version t0) = EndTxnResponse.wire version t :=
  app_congr (rfl) (rfl)
theorem EndTxnResponse.lawful : Lawful EndTxnResponse.type EndTxnResponse.layout :=
  ⟨EndTxnResponse.emits, EndTxnResponse.sized, EndTxnResponse.reads, EndTxnResponse.tame, EndTxnResponse.calm, EndTxnResponse.canon, EndTxnResponse.again⟩

end Kafka.Msg
