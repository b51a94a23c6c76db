import Verif.Message.StepLemmas
import Verif.Gen.Spec.Header
/-!
Generated by tools/gen_messages.py: laws of the Header messages.
-/
namespace Kafka.Msg

theorem RequestHeader.emits (version : Int16) (t : RequestHeader) :
    Emits (RequestHeader.encode version t) (RequestHeader.wire version t) :=
  (emits_int16 t.RequestApiKey)
    |>.andThen (emits_int16 t.RequestApiVersion)
    |>.andThen (emits_int32 t.CorrelationId)
    |>.andThen (Emits.onlyIf (emits_string t.ClientId))
theorem RequestHeader.sized (version : Int16) (t : RequestHeader) :
    Sized (RequestHeader.size version t) (RequestHeader.wire version t) :=
  Grows.sized ((Grows.add (sized_int16 t.RequestApiKey))
    |>.andThen (Grows.add (sized_int16 t.RequestApiVersion))
    |>.andThen (Grows.add (sized_int32 t.CorrelationId))
    |>.andThen (Grows.onlyIf (Grows.add (sized_string t.ClientId))))
theorem RequestHeader.reads (version : Int16) (t : RequestHeader) (h : t.Fits version) (t0 : RequestHeader) :
    Reads (RequestHeader.decode version t0) (RequestHeader.wire version t) (t.seen version t0) :=
  ((Step.field (set := fun (t : RequestHeader) x => { t with RequestApiKey := x }) (reads_int16 t.RequestApiKey))
    |>.andThen (Step.field (set := fun (t : RequestHeader) x => { t with RequestApiVersion := x }) (reads_int16 t.RequestApiVersion))
    |>.andThen (Step.field (set := fun (t : RequestHeader) x => { t with CorrelationId := x }) (reads_int32 t.CorrelationId))
    |>.andThen (Step.optField (c := version ≥ 1) (set := fun (t : RequestHeader) x => { t with ClientId := x }) (·.ClientId) (fun _ => rfl) fun hc => reads_string (h.ClientId hc)) : Step _ _ _) t0
theorem RequestHeader.tame (version : Int16) (t0 : RequestHeader) : Tame (RequestHeader.decode version t0) :=
  ((TameStep.field tame_int16)
    |>.andThen (TameStep.field tame_int16)
    |>.andThen (TameStep.field tame_int32)
    |>.andThen (TameStep.onlyIf (TameStep.field tame_string)) : TameStep _) t0
theorem RequestHeader.calm (version : Int16) (t0 : RequestHeader) :
    Calm (RequestHeader.decode version t0) (fun _ => True) :=
  ((CalmStep.field tame_int16 calm_int16)
    |>.andThen (CalmStep.field tame_int16 calm_int16)
    |>.andThen (CalmStep.field tame_int32 calm_int32)
    |>.andThen (CalmStep.onlyIf (CalmStep.field tame_string calm_string)) : CalmStep _).2 t0
theorem RequestHeader.canon (version : Int16) (t : RequestHeader) (h : t.Canon version) :
    t.seen version {} = t :=
  RequestHeader.ext rfl rfl rfl (canon_opt h.ClientId)
theorem RequestHeader.again (version : Int16) (t t0 : RequestHeader) :
    RequestHeader.wire version (t.seen version t0) = RequestHeader.wire version t :=
  app_congr (app_congr (app_congr (rfl) (rfl)) (rfl)) (again_opt Wire.string t.ClientId t0.ClientId)
theorem RequestHeader.lawful : Lawful RequestHeader.type RequestHeader.layout :=
  ⟨RequestHeader.emits, RequestHeader.sized, RequestHeader.reads, RequestHeader.tame, RequestHeader.calm, RequestHeader.canon, RequestHeader.again⟩

theorem ResponseHeader.emits (version : Int16) (t : ResponseHeader) :
    Emits (ResponseHeader.encode version t) (ResponseHeader.wire version t) :=
  emits_int32 t.CorrelationId
theorem ResponseHeader.sized (version : Int16) (t : ResponseHeader) :
    Sized (ResponseHeader.size version t) (ResponseHeader.wire version t) :=
  Grows.sized (Grows.add (sized_int32 t.CorrelationId))
theorem ResponseHeader.reads (version : Int16) (t : ResponseHeader) (_h : t.Fits version) (t0 : ResponseHeader) :
    Reads (ResponseHeader.decode version t0) (ResponseHeader.wire version t) (t.seen version t0) :=
  (Step.field (set := fun (t : ResponseHeader) x => { t with CorrelationId := x }) (reads_int32 t.CorrelationId) : Step _ _ _) t0
theorem ResponseHeader.tame (version : Int16) (t0 : ResponseHeader) : Tame (ResponseHeader.decode version t0) :=
  (TameStep.field tame_int32 : TameStep _) t0
theorem ResponseHeader.calm (version : Int16) (t0 : ResponseHeader) :
    Calm (ResponseHeader.decode version t0) (fun _ => True) :=
  (CalmStep.field tame_int32 calm_int32 : CalmStep _).2 t0
theorem ResponseHeader.canon (version : Int16) (t : ResponseHeader) (_h : t.Canon version) :
    t.seen version {} = t :=
  ResponseHeader.ext rfl
theorem ResponseHeader.again (version : Int16) (t t0 : ResponseHeader) :
    ResponseHeader.wire version (t.seen version t0) = ResponseHeader.wire version t :=
  rfl
theorem ResponseHeader.lawful : Lawful ResponseHeader.type ResponseHeader.layout :=
  ⟨ResponseHeader.emits, ResponseHeader.sized, ResponseHeader.reads, ResponseHeader.tame, ResponseHeader.calm, ResponseHeader.canon, ResponseHeader.again⟩

end Kafka.Msg
