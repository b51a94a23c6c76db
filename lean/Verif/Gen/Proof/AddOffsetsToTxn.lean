import Verif.Message.StepLemmas
import Verif.Gen.Spec.AddOffsetsToTxn
/-!
Generated by tools/gen_messages.py: laws of the AddOffsetsToTxn messages.
-/
namespace Kafka.Msg

theorem AddOffsetsToTxnRequest.emits (version : Int16) (t : AddOffsetsToTxnRequest) :
    Emits (AddOffsetsToTxnRequest.encode version t) (AddOffsetsToTxnRequest.wire version t) :=
  (emits_string t.TransactionalId)
    |>.andThen (emits_int64 t.ProducerId)
    |>.andThen (emits_int16 t.ProducerEpoch)
    |>.andThen (emits_string t.GroupId)
theorem AddOffsetsToTxnRequest.sized (version : Int16) (t : AddOffsetsToTxnRequest) :
    Sized (AddOffsetsToTxnRequest.size version t) (AddOffsetsToTxnRequest.wire version t) :=
  Grows.sized ((Grows.add (sized_string t.TransactionalId))
    |>.andThen (Grows.add (sized_int64 t.ProducerId))
    |>.andThen (Grows.add (sized_int16 t.ProducerEpoch))
    |>.andThen (Grows.add (sized_string t.GroupId)))
theorem AddOffsetsToTxnRequest.reads (version : Int16) (t : AddOffsetsToTxnRequest) (h : t.Fits version) (t0 : AddOffsetsToTxnRequest) :
    Reads (AddOffsetsToTxnRequest.decode version t0) (AddOffsetsToTxnRequest.wire version t) (t.seen version t0) :=
  ((Step.field (set := fun (t : AddOffsetsToTxnRequest) x => { t with TransactionalId := x }) (reads_string h.TransactionalId))
    |>.andThen (Step.field (set := fun (t : AddOffsetsToTxnRequest) x => { t with ProducerId := x }) (reads_int64 t.ProducerId))
    |>.andThen (Step.field (set := fun (t : AddOffsetsToTxnRequest) x => { t with ProducerEpoch := x }) (reads_int16 t.ProducerEpoch))
    |>.andThen (Step.field (set := fun (t : AddOffsetsToTxnRequest) x => { t with GroupId := x }) (reads_string h.GroupId)) : Step _ _ _) t0
theorem AddOffsetsToTxnRequest.tame (version : Int16) (t0 : AddOffsetsToTxnRequest) : Tame (AddOffsetsToTxnRequest.decode version t0) :=
  ((TameStep.field tame_string)
    |>.andThen (TameStep.field tame_int64)
    |>.andThen (TameStep.field tame_int16)
    |>.andThen (TameStep.field tame_string) : TameStep _) t0
theorem AddOffsetsToTxnRequest.calm (version : Int16) (t0 : AddOffsetsToTxnRequest) :
    Calm (AddOffsetsToTxnRequest.decode version t0) (fun _ => True) :=
  ((CalmStep.field tame_string calm_string)
    |>.andThen (CalmStep.field tame_int64 calm_int64)
    |>.andThen (CalmStep.field tame_int16 calm_int16)
    |>.andThen (CalmStep.field tame_string calm_string) : CalmStep _).2 t0
theorem AddOffsetsToTxnRequest.canon (version : Int16) (t : AddOffsetsToTxnRequest) (_h : t.Canon version) :
    t.seen version {} = t :=
  AddOffsetsToTxnRequest.ext rfl rfl rfl rfl
theorem AddOffsetsToTxnRequest.again (version : Int16) (t t0 : AddOffsetsToTxnRequest) :
    AddOffsetsToTxnRequest.wire version (t.seen version t0) = AddOffsetsToTxnRequest.wire version t :=
  app_congr (app_congr (app_congr (rfl) (rfl)) (rfl)) (rfl)
theorem AddOffsetsToTxnRequest.lawful : Lawful AddOffsetsToTxnRequest.type AddOffsetsToTxnRequest.layout :=
  ⟨AddOffsetsToTxnRequest.emits, AddOffsetsToTxnRequest.sized, AddOffsetsToTxnRequest.reads, AddOffsetsToTxnRequest.tame, AddOffsetsToTxnRequest.calm, AddOffsetsToTxnRequest.canon, AddOffsetsToTxnRequest.again⟩

theorem AddOffsetsToTxnResponse.emits (version : Int16) (t : AddOffsetsToTxnResponse) :
    Emits (AddOffsetsToTxnResponse.encode version t) (AddOffsetsToTxnResponse.wire version t) :=
  (emits_int32 t.ThrottleTimeMs)
    |>.andThen (emits_int16 t.ErrorCode)
theorem AddOffsetsToTxnResponse.sized (version : Int16) (t : AddOffsetsToTxnResponse) :
    Sized (AddOffsetsToTxnResponse.size version t) (AddOffsetsToTxnResponse.wire version t) :=
  Grows.sized ((Grows.add (sized_int32 t.ThrottleTimeMs))
    |>.andThen (Grows.add (sized_int16 t.ErrorCode)))
theorem AddOffsetsToTxnResponse.reads (version : Int16) (t : AddOffsetsToTxnResponse) (_h : t.Fits version) (t0 : AddOffsetsToTxnResponse) :
    Reads (AddOffsetsToTxnResponse.decode version t0) (AddOffsetsToTxnResponse.wire version t) (t.seen version t0) :=
  ((Step.field (set := fun (t : AddOffsetsToTxnResponse) x => { t with ThrottleTimeMs := x }) (reads_int32 t.ThrottleTimeMs))
    |>.andThen (Step.field (set := fun (t : AddOffsetsToTxnResponse) x => { t with ErrorCode := x }) (reads_int16 t.ErrorCode)) : Step _ _ _) t0
theorem AddOffsetsToTxnResponse.tame (version : Int16) (t0 : AddOffsetsToTxnResponse) : Tame (AddOffsetsToTxnResponse.decode version t0) :=
  ((TameStep.field tame_int32)
    |>.andThen (TameStep.field tame_int16) : TameStep _) t0
theorem AddOffsetsToTxnResponse.calm (version : Int16) (t0 : AddOffsetsToTxnResponse) :
    Calm (AddOffsetsToTxnResponse.decode version t0) (fun _ => True) :=
  ((CalmStep.field tame_int32 calm_int32)
    |>.andThen (CalmStep.field tame_int16 calm_int16) : CalmStep _).2 t0
theorem AddOffsetsToTxnResponse.canon (version : Int16) (t : AddOffsetsToTxnResponse) (_h : t.Canon version) :
    t.seen version {} = t :=
  AddOffsetsToTxnResponse.ext rfl rfl
theorem AddOffsetsToTxnResponse.again (version : Int16) (t t0 : AddOffsetsToTxnResponse) :
    AddOffsetsToTxnResponse.wire version (t.seen version t0) = AddOffsetsToTxnResponse.wire version t :=
  app_congr (rfl) (rfl)
theorem AddOffsetsToTxnResponse.lawful : Lawful AddOffsetsToTxnResponse.type AddOffsetsToTxnResponse.layout :=
  ⟨AddOffsetsToTxnResponse.emits, AddOffsetsToTxnResponse.sized, AddOffsetsToTxnResponse.reads, AddOffsetsToTxnResponse.tame, AddOffsetsToTxnResponse.calm, AddOffsetsToTxnResponse.canon, AddOffsetsToTxnResponse.again⟩

end Kafka.Msg
