import Verif.Message.StepLemmas
import Verif.Gen.Spec.ExpireDelegationToken
/-!
Generated by tools/gen_messages.py: laws of the ExpireDelegationToken messages.
-/
namespace Kafka.Msg

theorem ExpireDelegationTokenRequest.emits (version : Int16) (t : ExpireDelegationTokenRequest) :
    Emits (ExpireDelegationTokenRequest.encode version t) (ExpireDelegationTokenRequest.wire version t) :=
  (emits_bytes t.Hmac)
    |>.andThen (emits_int64 t.ExpiryTimePeriodMs)
theorem ExpireDelegationTokenRequest.sized (version : Int16) (t : ExpireDelegationTokenRequest) :
    Sized (ExpireDelegationTokenRequest.size version t) (ExpireDelegationTokenRequest.wire version t) :=
  Grows.sized ((Grows.add (sized_bytes t.Hmac))
    |>.andThen (Grows.add (sized_int64 t.ExpiryTimePeriodMs)))
theorem ExpireDelegationTokenRequest.reads (version : Int16) (t : ExpireDelegationTokenRequest) (h : t.Fits version) (t0 : ExpireDelegationTokenRequest) :
    Reads (ExpireDelegationTokenRequest.decode version t0) (ExpireDelegationTokenRequest.wire version t) (t.seen version t0) :=
  ((Step.field (set := fun (t : ExpireDelegationTokenRequest) x => { t with Hmac := x }) (reads_bytes h.Hmac))
    |>.andThen (Step.field (set := fun (t : ExpireDelegationTokenRequest) x => { t with ExpiryTimePeriodMs := x }) (reads_int64 t.ExpiryTimePeriodMs)) : Step _ _ _) t0
theorem ExpireDelegationTokenRequest.tame (version : Int16) (t0 : ExpireDelegationTokenRequest) : Tame (ExpireDelegationTokenRequest.decode version t0) :=
  ((TameStep.field tame_bytes)
    |>.andThen (TameStep.field tame_int64) : TameStep _) t0
theorem ExpireDelegationTokenRequest.calm (version : Int16) (t0 : ExpireDelegationTokenRequest) :
    Calm (ExpireDelegationTokenRequest.decode version t0) (fun _ => True) :=
  ((CalmStep.field tame_bytes calm_bytes)
    |>.andThen (CalmStep.field tame_int64 calm_int64) : CalmStep _).2 t0
theorem ExpireDelegationTokenRequest.canon (version : Int16) (t : ExpireDelegationTokenRequest) (h : t.Canon version) :
    t.seen version {} = t :=
  ExpireDelegationTokenRequest.ext (canon_nonNil h.Hmac) rfl
theorem ExpireDelegationTokenRequest.again (version : Int16) (t t0 : ExpireDelegationTokenRequest) :
    ExpireDelegationTokenRequest.wire version (t.seen version t0) = ExpireDelegationTokenRequest.wire version t :=
  app_congr (rfl) (rfl)
theorem ExpireDelegationTokenRequest.lawful : Lawful ExpireDelegationTokenRequest.type ExpireDelegationTokenRequest.layout :=
  ⟨ExpireDelegationTokenRequest.emits, ExpireDelegationTokenRequest.sized, ExpireDelegationTokenRequest.reads, ExpireDelegationTokenRequest.tame, ExpireDelegationTokenRequest.calm, ExpireDelegationTokenRequest.canon, ExpireDelegationTokenRequest.again⟩

theorem ExpireDelegationTokenResponse.emits (version : Int16) (t : ExpireDelegationTokenResponse) :
    Emits (ExpireDelegationTokenResponse.encode version t) (ExpireDelegationTokenResponse.wire version t) :=
  (emits_int16 t.ErrorCode)
    |>.andThen (emits_int64 t.ExpiryTimestampMs)
    |>.andThen (emits_int32 t.ThrottleTimeMs)
theorem ExpireDelegationTokenResponse.sized (version : Int16) (t : ExpireDelegationTokenResponse) :
    Sized (ExpireDelegationTokenResponse.size version t) (ExpireDelegationTokenResponse.wire version t) :=
  Grows.sized ((Grows.add (sized_int16 t.ErrorCode))
    |>.andThen (Grows.add (sized_int64 t.ExpiryTimestampMs))
    |>.andThen (Grows.add (sized_int32 t.ThrottleTimeMs)))
theorem ExpireDelegationTokenResponse.reads (version : Int16) (t : ExpireDelegationTokenResponse) (_h : t.Fits version) (t0 : ExpireDelegationTokenResponse) :
    Reads (ExpireDelegationTokenResponse.decode version t0) (ExpireDelegationTokenResponse.wire version t) (t.seen version t0) :=
  ((Step.field (set := fun (t : ExpireDelegationTokenResponse) x => { t with ErrorCode := x }) (reads_int16 t.ErrorCode))
    |>.andThen (Step.field (set := fun (t : ExpireDelegationTokenResponse) x => { t with ExpiryTimestampMs := x }) (reads_int64 t.ExpiryTimestampMs))
    |>.andThen (Step.field (set := fun (t : ExpireDelegationTokenResponse) x => { t with ThrottleTimeMs := x }) (reads_int32 t.ThrottleTimeMs)) : Step _ _ _) t0
theorem ExpireDelegationTokenResponse.tame (version : Int16) (t0 : ExpireDelegationTokenResponse) : Tame (ExpireDelegationTokenResponse.decode version t0) :=
  ((TameStep.field tame_int16)
    |>.andThen (TameStep.field tame_int64)
    |>.andThen (TameStep.field tame_int32) : TameStep _) t0
theorem ExpireDelegationTokenResponse.calm (version : Int16) (t0 : ExpireDelegationTokenResponse) :
    Calm (ExpireDelegationTokenResponse.decode version t0) (fun _ => True) :=
  ((CalmStep.field tame_int16 calm_int16)
    |>.andThen (CalmStep.field tame_int64 calm_int64)
    |>.andThen (CalmStep.field tame_int32 calm_int32) : CalmStep _).2 t0
theorem ExpireDelegationTokenResponse.canon (version : Int16) (t : ExpireDelegationTokenResponse) (_h : t.Canon version) :
    t.seen version {} = t :=
  ExpireDelegationTokenResponse.ext rfl rfl rfl
theorem ExpireDelegationTokenResponse.again (version : Int16) (t t0 : ExpireDelegationTokenResponse) :
    ExpireDelegationTokenResponse.wire version (t.seen version t0) = ExpireDelegationTokenResponse.wire version t :=
  app_congr (app_congr (rfl) (rfl)) (rfl)
theorem ExpireDelegationTokenResponse.lawful : Lawful ExpireDelegationTokenResponse.type ExpireDelegationTokenResponse.layout :=
  ⟨ExpireDelegationTokenResponse.emits, ExpireDelegationTokenResponse.sized, ExpireDelegationTokenResponse.reads, ExpireDelegationTokenResponse.tame, ExpireDelegationTokenResponse.calm, ExpireDelegationTokenResponse.canon, ExpireDelegationTokenResponse.again⟩

end Kafka.Msg
