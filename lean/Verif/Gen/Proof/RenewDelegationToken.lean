import Verif.Message.StepLemmas
import Verif.Gen.Spec.RenewDelegationToken
/-!
Generated by tools/gen_messages.py: laws of the RenewDelegationToken messages.
-/
namespace Kafka.Msg

theorem RenewDelegationTokenRequest.emits (version : Int16) (t : RenewDelegationTokenRequest) :
    Emits (RenewDelegationTokenRequest.encode version t) (RenewDelegationTokenRequest.wire version t) :=
  (emits_bytes t.Hmac)
    |>.andThen (emits_int64 t.RenewPeriodMs)
theorem RenewDelegationTokenRequest.sized (version : Int16) (t : RenewDelegationTokenRequest) :
    Sized (RenewDelegationTokenRequest.size version t) (RenewDelegationTokenRequest.wire version t) :=
  Grows.sized ((Grows.add (sized_bytes t.Hmac))
    |>.andThen (Grows.add (sized_int64 t.RenewPeriodMs)))
theorem RenewDelegationTokenRequest.reads (version : Int16) (t : RenewDelegationTokenRequest) (h : t.Fits version) (t0 : RenewDelegationTokenRequest) :
    Reads (RenewDelegationTokenRequest.decode version t0) (RenewDelegationTokenRequest.wire version t) (t.seen version t0) :=
  ((Step.field (set := fun (t : RenewDelegationTokenRequest) x => { t with Hmac := x }) (reads_bytes h.Hmac))
    |>.andThen (Step.field (set := fun (t : RenewDelegationTokenRequest) x => { t with RenewPeriodMs := x }) (reads_int64 t.RenewPeriodMs)) : Step _ _ _) t0
theorem RenewDelegationTokenRequest.tame (version : Int16) (t0 : RenewDelegationTokenRequest) : Tame (RenewDelegationTokenRequest.decode version t0) :=
  ((TameStep.field tame_bytes)
    |>.andThen (TameStep.field tame_int64) : TameStep _) t0
theorem RenewDelegationTokenRequest.calm (version : Int16) (t0 : RenewDelegationTokenRequest) :
    Calm (RenewDelegationTokenRequest.decode version t0) (fun _ => True) :=
  ((CalmStep.field tame_bytes calm_bytes)
    |>.andThen (CalmStep.field tame_int64 calm_int64) : CalmStep _).2 t0
theorem RenewDelegationTokenRequest.canon (version : Int16) (t : RenewDelegationTokenRequest) (h : t.Canon version) :
    t.seen version {} = t :=
  RenewDelegationTokenRequest.ext (canon_nonNil h.Hmac) rfl
theorem RenewDelegationTokenRequest.again (version : Int16) (t t0 : RenewDelegationTokenRequest) :
    RenewDelegationTokenRequest.wire version (t.seen version t0) = RenewDelegationTokenRequest.wire version t :=
  app_congr (rfl) (rfl)
theorem RenewDelegationTokenRequest.lawful : Lawful RenewDelegationTokenRequest.type RenewDelegationTokenRequest.layout :=
  ⟨RenewDelegationTokenRequest.emits, RenewDelegationTokenRequest.sized, RenewDelegationTokenRequest.reads, RenewDelegationTokenRequest.tame, RenewDelegationTokenRequest.calm, RenewDelegationTokenRequest.canon, RenewDelegationTokenRequest.again⟩

theorem RenewDelegationTokenResponse.emits (version : Int16) (t : RenewDelegationTokenResponse) :
    Emits (RenewDelegationTokenResponse.encode version t) (RenewDelegationTokenResponse.wire version t) :=
  (emits_int16 t.ErrorCode)
    |>.andThen (emits_int64 t.ExpiryTimestampMs)
    |>.andThen (emits_int32 t.ThrottleTimeMs)
theorem RenewDelegationTokenResponse.sized (version : Int16) (t : RenewDelegationTokenResponse) :
    Sized (RenewDelegationTokenResponse.size version t) (RenewDelegationTokenResponse.wire version t) :=
  Grows.sized ((Grows.add (sized_int16 t.ErrorCode))
    |>.andThen (Grows.add (sized_int64 t.ExpiryTimestampMs))
    |>.andThen (Grows.add (sized_int32 t.ThrottleTimeMs)))
theorem RenewDelegationTokenResponse.reads (version : Int16) (t : RenewDelegationTokenResponse) (_h : t.Fits version) (t0 : RenewDelegationTokenResponse) :
    Reads (RenewDelegationTokenResponse.decode version t0) (RenewDelegationTokenResponse.wire version t) (t.seen version t0) :=
  ((Step.field (set := fun (t : RenewDelegationTokenResponse) x => { t with ErrorCode := x }) (reads_int16 t.ErrorCode))
    |>.andThen (Step.field (set := fun (t : RenewDelegationTokenResponse) x => { t with ExpiryTimestampMs := x }) (reads_int64 t.ExpiryTimestampMs))
    |>.andThen (Step.field (set := fun (t : RenewDelegationTokenResponse) x => { t with ThrottleTimeMs := x }) (reads_int32 t.ThrottleTimeMs)) : Step _ _ _) t0
theorem RenewDelegationTokenResponse.tame (version : Int16) (t0 : RenewDelegationTokenResponse) : Tame (RenewDelegationTokenResponse.decode version t0) :=
  ((TameStep.field tame_int16)
    |>.andThen (TameStep.field tame_int64)
    |>.andThen (TameStep.field tame_int32) : TameStep _) t0
theorem RenewDelegationTokenResponse.calm (version : Int16) (t0 : RenewDelegationTokenResponse) :
    Calm (RenewDelegationTokenResponse.decode version t0) (fun _ => True) :=
  ((CalmStep.field tame_int16 calm_int16)
    |>.andThen (CalmStep.field tame_int64 calm_int64)
    |>.andThen (CalmStep.field tame_int32 calm_int32) : CalmStep _).2 t0
theorem RenewDelegationTokenResponse.canon (version : Int16) (t : RenewDelegationTokenResponse) (_h : t.Canon version) :
    t.seen version {} = t :=
  RenewDelegationTokenResponse.ext rfl rfl rfl
theorem RenewDelegationTokenResponse.again (version : Int16) (t t0 : RenewDelegationTokenResponse) :
    RenewDelegationTokenResponse.wire version (t.seen version t0) = RenewDelegationTokenResponse.wire version t :=
  app_congr (app_congr (rfl) (rfl)) (rfl)
theorem RenewDelegationTokenResponse.lawful : Lawful RenewDelegationTokenResponse.type RenewDelegationTokenResponse.layout :=
  ⟨RenewDelegationTokenResponse.emits, RenewDelegationTokenResponse.sized, RenewDelegationTokenResponse.reads, RenewDelegationTokenResponse.tame, RenewDelegationTokenResponse.calm, RenewDelegationTokenResponse.canon, RenewDelegationTokenResponse.again⟩

end Kafka.Msg
