import Verif.Message.StepLemmas
import Verif.Gen.Spec.SaslAuthenticate
/-!
Generated by tools/gen_messages.py: laws of the SaslAuthenticate messages.
-/
namespace Kafka.Msg

theorem SaslAuthenticateRequest.emits (version : Int16) (t : SaslAuthenticateRequest) :
    Emits (SaslAuthenticateRequest.encode version t) (SaslAuthenticateRequest.wire version t) :=
  emits_bytes t.AuthBytes
theorem SaslAuthenticateRequest.sized (version : Int16) (t : SaslAuthenticateRequest) :
    Sized (SaslAuthenticateRequest.size version t) (SaslAuthenticateRequest.wire version t) :=
  Grows.sized (Grows.add (sized_bytes t.AuthBytes))
theorem SaslAuthenticateRequest.reads (version : Int16) (t : SaslAuthenticateRequest) (h : t.Fits version) (t0 : SaslAuthenticateRequest) :
    Reads (SaslAuthenticateRequest.decode version t0) (SaslAuthenticateRequest.wire version t) (t.seen version t0) :=
  (Step.field (set := fun (t : SaslAuthenticateRequest) x => { t with AuthBytes := x }) (reads_bytes h.AuthBytes) : Step _ _ _) t0
theorem SaslAuthenticateRequest.tame (version : Int16) (t0 : SaslAuthenticateRequest) : Tame (SaslAuthenticateRequest.decode version t0) :=
  (TameStep.field tame_bytes : TameStep _) t0
theorem SaslAuthenticateRequest.calm (version : Int16) (t0 : SaslAuthenticateRequest) :
    Calm (SaslAuthenticateRequest.decode version t0) (fun _ => True) :=
  (CalmStep.field tame_bytes calm_bytes : CalmStep _).2 t0
theorem SaslAuthenticateRequest.canon (version : Int16) (t : SaslAuthenticateRequest) (h : t.Canon version) :
    t.seen version {} = t :=
  SaslAuthenticateRequest.ext (canon_nonNil h.AuthBytes)
theorem SaslAuthenticateRequest.again (version : Int16) (t t0 : SaslAuthenticateRequest) :
    SaslAuthenticateRequest.wire version (t.seen version t0) = SaslAuthenticateRequest.wire version t :=
  rfl
theorem SaslAuthenticateRequest.lawful : Lawful SaslAuthenticateRequest.type SaslAuthenticateRequest.layout :=
  ⟨SaslAuthenticateRequest.emits, SaslAuthenticateRequest.sized, SaslAuthenticateRequest.reads, SaslAuthenticateRequest.tame, SaslAuthenticateRequest.calm, SaslAuthenticateRequest.canon, SaslAuthenticateRequest.again⟩

theorem SaslAuthenticateResponse.emits (version : Int16) (t : SaslAuthenticateResponse) :
    Emits (SaslAuthenticateResponse.encode version t) (SaslAuthenticateResponse.wire version t) :=
  (emits_int16 t.ErrorCode)
    |>.andThen (emits_string t.ErrorMessage)
    |>.andThen (emits_bytes t.AuthBytes)
    |>.andThen (Emits.onlyIf (emits_int64 t.SessionLifetimeMs))
theorem SaslAuthenticateResponse.sized (version : Int16) (t : SaslAuthenticateResponse) :
    Sized (SaslAuthenticateResponse.size version t) (SaslAuthenticateResponse.wire version t) :=
  Grows.sized ((Grows.add (sized_int16 t.ErrorCode))
    |>.andThen (Grows.add (sized_string t.ErrorMessage))
    |>.andThen (Grows.add (sized_bytes t.AuthBytes))
    |>.andThen (Grows.onlyIf (Grows.add (sized_int64 t.SessionLifetimeMs))))
theorem SaslAuthenticateResponse.reads (version : Int16) (t : SaslAuthenticateResponse) (h : t.Fits version) (t0 : SaslAuthenticateResponse) :
    Reads (SaslAuthenticateResponse.decode version t0) (SaslAuthenticateResponse.wire version t) (t.seen version t0) :=
  ((Step.field (set := fun (t : SaslAuthenticateResponse) x => { t with ErrorCode := x }) (reads_int16 t.ErrorCode))
    |>.andThen (Step.field (set := fun (t : SaslAuthenticateResponse) x => { t with ErrorMessage := x }) (reads_string h.ErrorMessage))
    |>.andThen (Step.field (set := fun (t : SaslAuthenticateResponse) x => { t with AuthBytes := x }) (reads_bytes h.AuthBytes))
    |>.andThen (Step.optField (c := version ≥ 1) (set := fun (t : SaslAuthenticateResponse) x => { t with SessionLifetimeMs := x }) (·.SessionLifetimeMs) (fun _ => rfl) fun _ => reads_int64 t.SessionLifetimeMs) : Step _ _ _) t0
theorem SaslAuthenticateResponse.tame (version : Int16) (t0 : SaslAuthenticateResponse) : Tame (SaslAuthenticateResponse.decode version t0) :=
  ((TameStep.field tame_int16)
    |>.andThen (TameStep.field tame_string)
    |>.andThen (TameStep.field tame_bytes)
    |>.andThen (TameStep.onlyIf (TameStep.field tame_int64)) : TameStep _) t0
theorem SaslAuthenticateResponse.calm (version : Int16) (t0 : SaslAuthenticateResponse) :
    Calm (SaslAuthenticateResponse.decode version t0) (fun _ => True) :=
  ((CalmStep.field tame_int16 calm_int16)
    |>.andThen (CalmStep.field tame_string calm_string)
    |>.andThen (CalmStep.field tame_bytes calm_bytes)
    |>.andThen (CalmStep.onlyIf (CalmStep.field tame_int64 calm_int64)) : CalmStep _).2 t0
theorem SaslAuthenticateResponse.canon (version : Int16) (t : SaslAuthenticateResponse) (h : t.Canon version) :
    t.seen version {} = t :=
  SaslAuthenticateResponse.ext rfl rfl (canon_nonNil h.AuthBytes) (canon_opt h.SessionLifetimeMs)
theorem SaslAuthenticateResponse.again (version : Int16) (t t0 : SaslAuthenticateResponse) :
    SaslAuthenticateResponse.wire version (t.seen version t0) = SaslAuthenticateResponse.wire version t :=
  app_congr (app_congr (app_congr (rfl) (rfl)) (rfl)) (again_opt Wire.int64 t.SessionLifetimeMs t0.SessionLifetimeMs)
theorem SaslAuthenticateResponse.lawful : Lawful SaslAuthenticateResponse.type SaslAuthenticateResponse.layout :=
  ⟨SaslAuthenticateResponse.emits, SaslAuthenticateResponse.sized, SaslAuthenticateResponse.reads, SaslAuthenticateResponse.tame, SaslAuthenticateResponse.calm, SaslAuthenticateResponse.canon, SaslAuthenticateResponse.again⟩

end Kafka.Msg
