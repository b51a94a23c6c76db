import Verif.Message.StepLemmas
import Verif.Gen.Spec.SaslHandshake
/-!
Generated by tools/gen_messages.py: laws of the SaslHandshake messages.
-/
namespace Kafka.Msg

theorem SaslHandshakeRequest.emits (version : Int16) (t : SaslHandshakeRequest) :
    Emits (SaslHandshakeRequest.encode version t) (SaslHandshakeRequest.wire version t) :=
  emits_string t.Mechanism
theorem SaslHandshakeRequest.sized (version : Int16) (t : SaslHandshakeRequest) :
    Sized (SaslHandshakeRequest.size version t) (SaslHandshakeRequest.wire version t) :=
  Grows.sized (Grows.add (sized_string t.Mechanism))
theorem SaslHandshakeRequest.reads (version : Int16) (t : SaslHandshakeRequest) (h : t.Fits version) (t0 : SaslHandshakeRequest) :
    Reads (SaslHandshakeRequest.decode version t0) (SaslHandshakeRequest.wire version t) (t.seen version t0) :=
  (Step.field (set := fun (t : SaslHandshakeRequest) x => { t with Mechanism := x }) (reads_string h.Mechanism) : Step _ _ _) t0
theorem SaslHandshakeRequest.tame (version : Int16) (t0 : SaslHandshakeRequest) : Tame (SaslHandshakeRequest.decode version t0) :=
  (TameStep.field tame_string : TameStep _) t0
theorem SaslHandshakeRequest.calm (version : Int16) (t0 : SaslHandshakeRequest) :
    Calm (SaslHandshakeRequest.decode version t0) (fun _ => True) :=
  (CalmStep.field tame_string calm_string : CalmStep _).2 t0
theorem SaslHandshakeRequest.canon (version : Int16) (t : SaslHandshakeRequest) (_h : t.Canon version) :
    t.seen version {} = t :=
  SaslHandshakeRequest.ext rfl
theorem SaslHandshakeRequest.again (version : Int16) (t t0 : SaslHandshakeRequest) :
    SaslHandshakeRequest.wire version (t.seen version t0) = SaslHandshakeRequest.wire version t :=
  rfl
theorem SaslHandshakeRequest.lawful : Lawful SaslHandshakeRequest.type SaslHandshakeRequest.layout :=
  ⟨SaslHandshakeRequest.emits, SaslHandshakeRequest.sized, SaslHandshakeRequest.reads, SaslHandshakeRequest.tame, SaslHandshakeRequest.calm, SaslHandshakeRequest.canon, SaslHandshakeRequest.again⟩

theorem SaslHandshakeResponse.emits (version : Int16) (t : SaslHandshakeResponse) :
    Emits (SaslHandshakeResponse.encode version t) (SaslHandshakeResponse.wire version t) :=
  (emits_int16 t.ErrorCode)
    |>.andThen (emits_stringArray t.Mechanisms)
theorem SaslHandshakeResponse.sized (version : Int16) (t : SaslHandshakeResponse) :
    Sized (SaslHandshakeResponse.size version t) (SaslHandshakeResponse.wire version t) :=
  Grows.sized ((Grows.add (sized_int16 t.ErrorCode))
    |>.andThen (Grows.add (sized_stringArray t.Mechanisms)))
theorem SaslHandshakeResponse.reads (version : Int16) (t : SaslHandshakeResponse) (h : t.Fits version) (t0 : SaslHandshakeResponse) :
    Reads (SaslHandshakeResponse.decode version t0) (SaslHandshakeResponse.wire version t) (t.seen version t0) :=
  ((Step.field (set := fun (t : SaslHandshakeResponse) x => { t with ErrorCode := x }) (reads_int16 t.ErrorCode))
    |>.andThen (Step.field (set := fun (t : SaslHandshakeResponse) x => { t with Mechanisms := x }) (reads_stringArray h.Mechanisms)) : Step _ _ _) t0
theorem SaslHandshakeResponse.tame (version : Int16) (t0 : SaslHandshakeResponse) : Tame (SaslHandshakeResponse.decode version t0) :=
  ((TameStep.field tame_int16)
    |>.andThen (TameStep.field tame_stringArray) : TameStep _) t0
theorem SaslHandshakeResponse.calm (version : Int16) (t0 : SaslHandshakeResponse) :
    Calm (SaslHandshakeResponse.decode version t0) (fun _ => True) :=
  ((CalmStep.field tame_int16 calm_int16)
    |>.andThen (CalmStep.field tame_stringArray calm_stringArray) : CalmStep _).2 t0
theorem SaslHandshakeResponse.canon (version : Int16) (t : SaslHandshakeResponse) (_h : t.Canon version) :
    t.seen version {} = t :=
  SaslHandshakeResponse.ext rfl rfl
theorem SaslHandshakeResponse.again (version : Int16) (t t0 : SaslHandshakeResponse) :
    SaslHandshakeResponse.wire version (t.seen version t0) = SaslHandshakeResponse.wire version t :=
  app_congr (rfl) (rfl)
theorem SaslHandshakeResponse.lawful : Lawful SaslHandshakeResponse.type SaslHandshakeResponse.layout :=
  ⟨SaslHandshakeResponse.emits, SaslHandshakeResponse.sized, SaslHandshakeResponse.reads, SaslHandshakeResponse.tame, SaslHandshakeResponse.calm, SaslHandshakeResponse.canon, SaslHandshakeResponse.again⟩

end Kafka.Msg
