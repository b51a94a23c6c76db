import Verif.Message.StepLemmas
import Verif.Gen.Spec.CreateDelegationToken
/-!
Generated by tools/gen_messages.py: laws of the CreateDelegationToken messages.
-/
namespace Kafka.Msg

theorem CreatableRenewers38.emits (version : Int16) (t : CreatableRenewers38) :
    Emits (CreatableRenewers38.encode version t) (CreatableRenewers38.wire version t) :=
  (emits_string t.PrincipalType)
    |>.andThen (emits_string t.PrincipalName)
theorem CreatableRenewers38.sized (version : Int16) (t : CreatableRenewers38) :
    Sized (CreatableRenewers38.size version t) (CreatableRenewers38.wire version t) :=
  Grows.sized ((Grows.add (sized_string t.PrincipalType))
    |>.andThen (Grows.add (sized_string t.PrincipalName)))
theorem CreatableRenewers38.reads (version : Int16) (t : CreatableRenewers38) (h : t.Fits version) (t0 : CreatableRenewers38) :
    Reads (CreatableRenewers38.decode version t0) (CreatableRenewers38.wire version t) (t.seen version t0) :=
  ((Step.field (set := fun (t : CreatableRenewers38) x => { t with PrincipalType := x }) (reads_string h.PrincipalType))
    |>.andThen (Step.field (set := fun (t : CreatableRenewers38) x => { t with PrincipalName := x }) (reads_string h.PrincipalName)) : Step _ _ _) t0
theorem CreatableRenewers38.tame (version : Int16) (t0 : CreatableRenewers38) : Tame (CreatableRenewers38.decode version t0) :=
  ((TameStep.field tame_string)
    |>.andThen (TameStep.field tame_string) : TameStep _) t0
theorem CreatableRenewers38.calm (version : Int16) (t0 : CreatableRenewers38) :
    Calm (CreatableRenewers38.decode version t0) (fun _ => True) :=
  ((CalmStep.field tame_string calm_string)
    |>.andThen (CalmStep.field tame_string calm_string) : CalmStep _).2 t0
theorem CreatableRenewers38.canon (version : Int16) (t : CreatableRenewers38) (_h : t.Canon version) :
    t.seen version {} = t :=
  CreatableRenewers38.ext rfl rfl
theorem CreatableRenewers38.again (version : Int16) (t t0 : CreatableRenewers38) :
    CreatableRenewers38.wire version (t.seen version t0) = CreatableRenewers38.wire version t :=
  app_congr (rfl) (rfl)
theorem CreatableRenewers38.lawful : Lawful CreatableRenewers38.type CreatableRenewers38.layout :=
  ⟨CreatableRenewers38.emits, CreatableRenewers38.sized, CreatableRenewers38.reads, CreatableRenewers38.tame, CreatableRenewers38.calm, CreatableRenewers38.canon, CreatableRenewers38.again⟩

theorem CreateDelegationTokenRequest.emits (version : Int16) (t : CreateDelegationTokenRequest) :
    Emits (CreateDelegationTokenRequest.encode version t) (CreateDelegationTokenRequest.wire version t) :=
  (emits_structs (CreatableRenewers38.emits version) t.Renewers)
    |>.andThen (emits_int64 t.MaxLifetimeMs)
theorem CreateDelegationTokenRequest.sized (version : Int16) (t : CreateDelegationTokenRequest) :
    Sized (CreateDelegationTokenRequest.size version t) (CreateDelegationTokenRequest.wire version t) :=
  Grows.sized ((Grows.structs (CreatableRenewers38.sized version) t.Renewers)
    |>.andThen (Grows.add (sized_int64 t.MaxLifetimeMs)))
theorem CreateDelegationTokenRequest.reads (version : Int16) (t : CreateDelegationTokenRequest) (h : t.Fits version) (t0 : CreateDelegationTokenRequest) :
    Reads (CreateDelegationTokenRequest.decode version t0) (CreateDelegationTokenRequest.wire version t) (t.seen version t0) :=
  ((Step.structs (get := fun (t : CreateDelegationTokenRequest) => t.Renewers) (set := fun (t : CreateDelegationTokenRequest) x => { t with Renewers := x }) (fun x hx => CreatableRenewers38.reads version x hx {}) h.Renewers)
    |>.andThen (Step.field (set := fun (t : CreateDelegationTokenRequest) x => { t with MaxLifetimeMs := x }) (reads_int64 t.MaxLifetimeMs)) : Step _ _ _) t0
theorem CreateDelegationTokenRequest.tame (version : Int16) (t0 : CreateDelegationTokenRequest) : Tame (CreateDelegationTokenRequest.decode version t0) :=
  ((TameStep.structs (CreatableRenewers38.tame version {}))
    |>.andThen (TameStep.field tame_int64) : TameStep _) t0
theorem CreateDelegationTokenRequest.calm (version : Int16) (t0 : CreateDelegationTokenRequest) :
    Calm (CreateDelegationTokenRequest.decode version t0) (fun _ => True) :=
  ((CalmStep.structs (CreatableRenewers38.tame version {}) (CreatableRenewers38.calm version {}))
    |>.andThen (CalmStep.field tame_int64 calm_int64) : CalmStep _).2 t0
theorem CreateDelegationTokenRequest.canon (version : Int16) (t : CreateDelegationTokenRequest) (h : t.Canon version) :
    t.seen version {} = t :=
  CreateDelegationTokenRequest.ext (canon_structs (CreatableRenewers38.canon version) h.Renewers) rfl
theorem CreateDelegationTokenRequest.again (version : Int16) (t t0 : CreateDelegationTokenRequest) :
    CreateDelegationTokenRequest.wire version (t.seen version t0) = CreateDelegationTokenRequest.wire version t :=
  app_congr (again_structs (fun x => CreatableRenewers38.again version x {}) t.Renewers) (rfl)
theorem CreateDelegationTokenRequest.lawful : Lawful CreateDelegationTokenRequest.type CreateDelegationTokenRequest.layout :=
  ⟨CreateDelegationTokenRequest.emits, CreateDelegationTokenRequest.sized, CreateDelegationTokenRequest.reads, CreateDelegationTokenRequest.tame, CreateDelegationTokenRequest.calm, CreateDelegationTokenRequest.canon, CreateDelegationTokenRequest.again⟩

theorem CreateDelegationTokenResponse.emits (version : Int16) (t : CreateDelegationTokenResponse) :
    Emits (CreateDelegationTokenResponse.encode version t) (CreateDelegationTokenResponse.wire version t) :=
  (emits_int16 t.ErrorCode)
    |>.andThen (emits_string t.PrincipalType)
    |>.andThen (emits_string t.PrincipalName)
    |>.andThen (emits_int64 t.IssueTimestampMs)
    |>.andThen (emits_int64 t.ExpiryTimestampMs)
    |>.andThen (emits_int64 t.MaxTimestampMs)
    |>.andThen (emits_string t.TokenId)
    |>.andThen (emits_bytes t.Hmac)
    |>.andThen (emits_int32 t.ThrottleTimeMs)
theorem CreateDelegationTokenResponse.sized (version : Int16) (t : CreateDelegationTokenResponse) :
    Sized (CreateDelegationTokenResponse.size version t) (CreateDelegationTokenResponse.wire version t) :=
  Grows.sized ((Grows.add (sized_int16 t.ErrorCode))
    |>.andThen (Grows.add (sized_string t.PrincipalType))
    |>.andThen (Grows.add (sized_string t.PrincipalName))
    |>.andThen (Grows.add (sized_int64 t.IssueTimestampMs))
    |>.andThen (Grows.add (sized_int64 t.ExpiryTimestampMs))
    |>.andThen (Grows.add (sized_int64 t.MaxTimestampMs))
    |>.andThen (Grows.add (sized_string t.TokenId))
    |>.andThen (Grows.add (sized_bytes t.Hmac))
    |>.andThen (Grows.add (sized_int32 t.ThrottleTimeMs)))
theorem CreateDelegationTokenResponse.reads (version : Int16) (t : CreateDelegationTokenResponse) (h : t.Fits version) (t0 : CreateDelegationTokenResponse) :
    Reads (CreateDelegationTokenResponse.decode version t0) (CreateDelegationTokenResponse.wire version t) (t.seen version t0) :=
  ((Step.field (set := fun (t : CreateDelegationTokenResponse) x => { t with ErrorCode := x }) (reads_int16 t.ErrorCode))
    |>.andThen (Step.field (set := fun (t : CreateDelegationTokenResponse) x => { t with PrincipalType := x }) (reads_string h.PrincipalType))
    |>.andThen (Step.field (set := fun (t : CreateDelegationTokenResponse) x => { t with PrincipalName := x }) (reads_string h.PrincipalName))
    |>.andThen (Step.field (set := fun (t : CreateDelegationTokenResponse) x => { t with IssueTimestampMs := x }) (reads_int64 t.IssueTimestampMs))
    |>.andThen (Step.field (set := fun (t : CreateDelegationTokenResponse) x => { t with ExpiryTimestampMs := x }) (reads_int64 t.ExpiryTimestampMs))
    |>.andThen (Step.field (set := fun (t : CreateDelegationTokenResponse) x => { t with MaxTimestampMs := x }) (reads_int64 t.MaxTimestampMs))
    |>.andThen (Step.field (set := fun (t : CreateDelegationTokenResponse) x => { t with TokenId := x }) (reads_string h.TokenId))
    |>.andThen (Step.field (set := fun (t : CreateDelegationTokenResponse) x => { t with Hmac := x }) (reads_bytes h.Hmac))
    |>.andThen (Step.field (set := fun (t : CreateDelegationTokenResponse) x => { t with ThrottleTimeMs := x }) (reads_int32 t.ThrottleTimeMs)) : Step _ _ _) t0
theorem CreateDelegationTokenResponse.tame (version : Int16) (t0 : CreateDelegationTokenResponse) : Tame (CreateDelegationTokenResponse.decode version t0) :=
  ((TameStep.field tame_int16)
    |>.andThen (TameStep.field tame_string)
    |>.andThen (TameStep.field tame_string)
    |>.andThen (TameStep.field tame_int64)
    |>.andThen (TameStep.field tame_int64)
    |>.andThen (TameStep.field tame_int64)
    |>.andThen (TameStep.field tame_string)
    |>.andThen (TameStep.field tame_bytes)
    |>.andThen (TameStep.field tame_int32) : TameStep _) t0
theorem CreateDelegationTokenResponse.calm (version : Int16) (t0 : CreateDelegationTokenResponse) :
    Calm (CreateDelegationTokenResponse.decode version t0) (fun _ => True) :=
  ((CalmStep.field tame_int16 calm_int16)
    |>.andThen (CalmStep.field tame_string calm_string)
    |>.andThen (CalmStep.field tame_string calm_string)
    |>.andThen (CalmStep.field tame_int64 calm_int64)
    |>.andThen (CalmStep.field tame_int64 calm_int64)
    |>.andThen (CalmStep.field tame_int64 calm_int64)
    |>.andThen (CalmStep.field tame_string calm_string)
    |>.andThen (CalmStep.field tame_bytes calm_bytes)
    |>.andThen (CalmStep.field tame_int32 calm_int32) : CalmStep _).2 t0
theorem CreateDelegationTokenResponse.canon (version : Int16) (t : CreateDelegationTokenResponse) (h : t.Canon version) :
    t.seen version {} = t :=
  CreateDelegationTokenResponse.ext rfl rfl rfl rfl rfl rfl rfl (canon_nonNil h.Hmac) rfl
theorem CreateDelegationTokenResponse.again (version : Int16) (t t0 : CreateDelegationTokenResponse) :
    CreateDelegationTokenResponse.wire version (t.seen version t0) = CreateDelegationTokenResponse.wire version t :=
  app_congr (app_congr (app_congr (app_congr (app_congr (app_congr (app_congr (app_congr (rfl) (rfl)) (rfl)) (rfl)) (rfl)) (rfl)) (rfl)) (rfl)) (rfl)
theorem CreateDelegationTokenResponse.lawful : Lawful CreateDelegationTokenResponse.type CreateDelegationTokenResponse.layout :=
  ⟨CreateDelegationTokenResponse.emits, CreateDelegationTokenResponse.sized, CreateDelegationTokenResponse.reads, CreateDelegationTokenResponse.tame, CreateDelegationTokenResponse.calm, CreateDelegationTokenResponse.canon, CreateDelegationTokenResponse.again⟩

end Kafka.Msg
