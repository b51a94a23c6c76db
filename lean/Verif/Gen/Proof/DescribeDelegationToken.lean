import Verif.Message.StepLemmas
import Verif.Gen.Spec.DescribeDelegationToken
/-!
Generated by tools/gen_messages.py: laws of the DescribeDelegationToken messages.
-/
namespace Kafka.Msg

theorem DescribeDelegationTokenOwner41.emits (version : Int16) (t : DescribeDelegationTokenOwner41) :
    Emits (DescribeDelegationTokenOwner41.encode version t) (DescribeDelegationTokenOwner41.wire version t) :=
  (emits_string t.PrincipalType)
    |>.andThen (emits_string t.PrincipalName)
theorem DescribeDelegationTokenOwner41.sized (version : Int16) (t : DescribeDelegationTokenOwner41) :
    Sized (DescribeDelegationTokenOwner41.size version t) (DescribeDelegationTokenOwner41.wire version t) :=
  Grows.sized ((Grows.add (sized_string t.PrincipalType))
    |>.andThen (Grows.add (sized_string t.PrincipalName)))
theorem DescribeDelegationTokenOwner41.reads (version : Int16) (t : DescribeDelegationTokenOwner41) (h : t.Fits version) (t0 : DescribeDelegationTokenOwner41) :
    Reads (DescribeDelegationTokenOwner41.decode version t0) (DescribeDelegationTokenOwner41.wire version t) (t.seen version t0) :=
  ((Step.field (set := fun (t : DescribeDelegationTokenOwner41) x => { t with PrincipalType := x }) (reads_string h.PrincipalType))
    |>.andThen (Step.field (set := fun (t : DescribeDelegationTokenOwner41) x => { t with PrincipalName := x }) (reads_string h.PrincipalName)) : Step _ _ _) t0
theorem DescribeDelegationTokenOwner41.tame (version : Int16) (t0 : DescribeDelegationTokenOwner41) : Tame (DescribeDelegationTokenOwner41.decode version t0) :=
  ((TameStep.field tame_string)
    |>.andThen (TameStep.field tame_string) : TameStep _) t0
theorem DescribeDelegationTokenOwner41.calm (version : Int16) (t0 : DescribeDelegationTokenOwner41) :
    Calm (DescribeDelegationTokenOwner41.decode version t0) (fun _ => True) :=
  ((CalmStep.field tame_string calm_string)
    |>.andThen (CalmStep.field tame_string calm_string) : CalmStep _).2 t0
theorem DescribeDelegationTokenOwner41.canon (version : Int16) (t : DescribeDelegationTokenOwner41) (_h : t.Canon version) :
    t.seen version {} = t :=
  DescribeDelegationTokenOwner41.ext rfl rfl
theorem DescribeDelegationTokenOwner41.again (version : Int16) (t t0 : DescribeDelegationTokenOwner41) :
    DescribeDelegationTokenOwner41.wire version (t.seen version t0) = DescribeDelegationTokenOwner41.wire version t :=
  app_congr (rfl) (rfl)
theorem DescribeDelegationTokenOwner41.lawful : Lawful DescribeDelegationTokenOwner41.type DescribeDelegationTokenOwner41.layout :=
  ⟨DescribeDelegationTokenOwner41.emits, DescribeDelegationTokenOwner41.sized, DescribeDelegationTokenOwner41.reads, DescribeDelegationTokenOwner41.tame, DescribeDelegationTokenOwner41.calm, DescribeDelegationTokenOwner41.canon, DescribeDelegationTokenOwner41.again⟩

theorem DescribeDelegationTokenRequest.emits (version : Int16) (t : DescribeDelegationTokenRequest) :
    Emits (DescribeDelegationTokenRequest.encode version t) (DescribeDelegationTokenRequest.wire version t) :=
  emits_structs (DescribeDelegationTokenOwner41.emits version) t.Owners
theorem DescribeDelegationTokenRequest.sized (version : Int16) (t : DescribeDelegationTokenRequest) :
    Sized (DescribeDelegationTokenRequest.size version t) (DescribeDelegationTokenRequest.wire version t) :=
  Grows.sized (Grows.structs (DescribeDelegationTokenOwner41.sized version) t.Owners)
theorem DescribeDelegationTokenRequest.reads (version : Int16) (t : DescribeDelegationTokenRequest) (h : t.Fits version) (t0 : DescribeDelegationTokenRequest) :
    Reads (DescribeDelegationTokenRequest.decode version t0) (DescribeDelegationTokenRequest.wire version t) (t.seen version t0) :=
  (Step.structs (get := fun (t : DescribeDelegationTokenRequest) => t.Owners) (set := fun (t : DescribeDelegationTokenRequest) x => { t with Owners := x }) (fun x hx => DescribeDelegationTokenOwner41.reads version x hx {}) h.Owners : Step _ _ _) t0
theorem DescribeDelegationTokenRequest.tame (version : Int16) (t0 : DescribeDelegationTokenRequest) : Tame (DescribeDelegationTokenRequest.decode version t0) :=
  (TameStep.structs (DescribeDelegationTokenOwner41.tame version {}) : TameStep _) t0
theorem DescribeDelegationTokenRequest.calm (version : Int16) (t0 : DescribeDelegationTokenRequest) :
    Calm (DescribeDelegationTokenRequest.decode version t0) (fun _ => True) :=
  (CalmStep.structs (DescribeDelegationTokenOwner41.tame version {}) (DescribeDelegationTokenOwner41.calm version {}) : CalmStep _).2 t0
theorem DescribeDelegationTokenRequest.canon (version : Int16) (t : DescribeDelegationTokenRequest) (h : t.Canon version) :
    t.seen version {} = t :=
  DescribeDelegationTokenRequest.ext (canon_structs (DescribeDelegationTokenOwner41.canon version) h.Owners)
theorem DescribeDelegationTokenRequest.again (version : Int16) (t t0 : DescribeDelegationTokenRequest) :
    DescribeDelegationTokenRequest.wire version (t.seen version t0) = DescribeDelegationTokenRequest.wire version t :=
  again_structs (fun x => DescribeDelegationTokenOwner41.again version x {}) t.Owners
theorem DescribeDelegationTokenRequest.lawful : Lawful DescribeDelegationTokenRequest.type DescribeDelegationTokenRequest.layout :=
  ⟨DescribeDelegationTokenRequest.emits, DescribeDelegationTokenRequest.sized, DescribeDelegationTokenRequest.reads, DescribeDelegationTokenRequest.tame, DescribeDelegationTokenRequest.calm, DescribeDelegationTokenRequest.canon, DescribeDelegationTokenRequest.again⟩

theorem DescribedDelegationTokenRenewer41.emits (version : Int16) (t : DescribedDelegationTokenRenewer41) :
    Emits (DescribedDelegationTokenRenewer41.encode version t) (DescribedDelegationTokenRenewer41.wire version t) :=
  (emits_string t.PrincipalType)
    |>.andThen (emits_string t.PrincipalName)
theorem DescribedDelegationTokenRenewer41.sized (version : Int16) (t : DescribedDelegationTokenRenewer41) :
    Sized (DescribedDelegationTokenRenewer41.size version t) (DescribedDelegationTokenRenewer41.wire version t) :=
  Grows.sized ((Grows.add (sized_string t.PrincipalType))
    |>.andThen (Grows.add (sized_string t.PrincipalName)))
theorem DescribedDelegationTokenRenewer41.reads (version : Int16) (t : DescribedDelegationTokenRenewer41) (h : t.Fits version) (t0 : DescribedDelegationTokenRenewer41) :
    Reads (DescribedDelegationTokenRenewer41.decode version t0) (DescribedDelegationTokenRenewer41.wire version t) (t.seen version t0) :=
  ((Step.field (set := fun (t : DescribedDelegationTokenRenewer41) x => { t with PrincipalType := x }) (reads_string h.PrincipalType))
    |>.andThen (Step.field (set := fun (t : DescribedDelegationTokenRenewer41) x => { t with PrincipalName := x }) (reads_string h.PrincipalName)) : Step _ _ _) t0
theorem DescribedDelegationTokenRenewer41.tame (version : Int16) (t0 : DescribedDelegationTokenRenewer41) : Tame (DescribedDelegationTokenRenewer41.decode version t0) :=
  ((TameStep.field tame_string)
    |>.andThen (TameStep.field tame_string) : TameStep _) t0
theorem DescribedDelegationTokenRenewer41.calm (version : Int16) (t0 : DescribedDelegationTokenRenewer41) :
    Calm (DescribedDelegationTokenRenewer41.decode version t0) (fun _ => True) :=
  ((CalmStep.field tame_string calm_string)
    |>.andThen (CalmStep.field tame_string calm_string) : CalmStep _).2 t0
theorem DescribedDelegationTokenRenewer41.canon (version : Int16) (t : DescribedDelegationTokenRenewer41) (_h : t.Canon version) :
    t.seen version {} = t :=
  DescribedDelegationTokenRenewer41.ext rfl rfl
theorem DescribedDelegationTokenRenewer41.again (version : Int16) (t t0 : DescribedDelegationTokenRenewer41) :
    DescribedDelegationTokenRenewer41.wire version (t.seen version t0) = DescribedDelegationTokenRenewer41.wire version t :=
  app_congr (rfl) (rfl)
theorem DescribedDelegationTokenRenewer41.lawful : Lawful DescribedDelegationTokenRenewer41.type DescribedDelegationTokenRenewer41.layout :=
  ⟨DescribedDelegationTokenRenewer41.emits, DescribedDelegationTokenRenewer41.sized, DescribedDelegationTokenRenewer41.reads, DescribedDelegationTokenRenewer41.tame, DescribedDelegationTokenRenewer41.calm, DescribedDelegationTokenRenewer41.canon, DescribedDelegationTokenRenewer41.again⟩

theorem DescribedDelegationToken41.emits (version : Int16) (t : DescribedDelegationToken41) :
    Emits (DescribedDelegationToken41.encode version t) (DescribedDelegationToken41.wire version t) :=
  (emits_string t.PrincipalType)
    |>.andThen (emits_string t.PrincipalName)
    |>.andThen (emits_int64 t.IssueTimestamp)
    |>.andThen (emits_int64 t.ExpiryTimestamp)
    |>.andThen (emits_int64 t.MaxTimestamp)
    |>.andThen (emits_string t.TokenId)
    |>.andThen (emits_bytes t.Hmac)
    |>.andThen (emits_structs (DescribedDelegationTokenRenewer41.emits version) t.Renewers)
theorem DescribedDelegationToken41.sized (version : Int16) (t : DescribedDelegationToken41) :
    Sized (DescribedDelegationToken41.size version t) (DescribedDelegationToken41.wire version t) :=
  Grows.sized ((Grows.add (sized_string t.PrincipalType))
    |>.andThen (Grows.add (sized_string t.PrincipalName))
    |>.andThen (Grows.add (sized_int64 t.IssueTimestamp))
    |>.andThen (Grows.add (sized_int64 t.ExpiryTimestamp))
    |>.andThen (Grows.add (sized_int64 t.MaxTimestamp))
    |>.andThen (Grows.add (sized_string t.TokenId))
    |>.andThen (Grows.add (sized_bytes t.Hmac))
    |>.andThen (Grows.structs (DescribedDelegationTokenRenewer41.sized version) t.Renewers))
theorem DescribedDelegationToken41.reads (version : Int16) (t : DescribedDelegationToken41) (h : t.Fits version) (t0 : DescribedDelegationToken41) :
    Reads (DescribedDelegationToken41.decode version t0) (DescribedDelegationToken41.wire version t) (t.seen version t0) :=
  ((Step.field (set := fun (t : DescribedDelegationToken41) x => { t with PrincipalType := x }) (reads_string h.PrincipalType))
    |>.andThen (Step.field (set := fun (t : DescribedDelegationToken41) x => { t with PrincipalName := x }) (reads_string h.PrincipalName))
    |>.andThen (Step.field (set := fun (t : DescribedDelegationToken41) x => { t with IssueTimestamp := x }) (reads_int64 t.IssueTimestamp))
    |>.andThen (Step.field (set := fun (t : DescribedDelegationToken41) x => { t with ExpiryTimestamp := x }) (reads_int64 t.ExpiryTimestamp))
    |>.andThen (Step.field (set := fun (t : DescribedDelegationToken41) x => { t with MaxTimestamp := x }) (reads_int64 t.MaxTimestamp))
    |>.andThen (Step.field (set := fun (t : DescribedDelegationToken41) x => { t with TokenId := x }) (reads_string h.TokenId))
    |>.andThen (Step.field (set := fun (t : DescribedDelegationToken41) x => { t with Hmac := x }) (reads_bytes h.Hmac))
    |>.andThen (Step.structs (get := fun (t : DescribedDelegationToken41) => t.Renewers) (set := fun (t : DescribedDelegationToken41) x => { t with Renewers := x }) (fun x hx => DescribedDelegationTokenRenewer41.reads version x hx {}) h.Renewers) : Step _ _ _) t0
theorem DescribedDelegationToken41.tame (version : Int16) (t0 : DescribedDelegationToken41) : Tame (DescribedDelegationToken41.decode version t0) :=
  ((TameStep.field tame_string)
    |>.andThen (TameStep.field tame_string)
    |>.andThen (TameStep.field tame_int64)
    |>.andThen (TameStep.field tame_int64)
    |>.andThen (TameStep.field tame_int64)
    |>.andThen (TameStep.field tame_string)
    |>.andThen (TameStep.field tame_bytes)
    |>.andThen (TameStep.structs (DescribedDelegationTokenRenewer41.tame version {})) : TameStep _) t0
theorem DescribedDelegationToken41.calm (version : Int16) (t0 : DescribedDelegationToken41) :
    Calm (DescribedDelegationToken41.decode version t0) (fun _ => True) :=
  ((CalmStep.field tame_string calm_string)
    |>.andThen (CalmStep.field tame_string calm_string)
    |>.andThen (CalmStep.field tame_int64 calm_int64)
    |>.andThen (CalmStep.field tame_int64 calm_int64)
    |>.andThen (CalmStep.field tame_int64 calm_int64)
    |>.andThen (CalmStep.field tame_string calm_string)
    |>.andThen (CalmStep.field tame_bytes calm_bytes)
    |>.andThen (CalmStep.structs (DescribedDelegationTokenRenewer41.tame version {}) (DescribedDelegationTokenRenewer41.calm version {})) : CalmStep _).2 t0
theorem DescribedDelegationToken41.canon (version : Int16) (t : DescribedDelegationToken41) (h : t.Canon version) :
    t.seen version {} = t :=
  DescribedDelegationToken41.ext rfl rfl rfl rfl rfl rfl (canon_nonNil h.Hmac) (canon_structs (DescribedDelegationTokenRenewer41.canon version) h.Renewers)
theorem DescribedDelegationToken41.again (version : Int16) (t t0 : DescribedDelegationToken41) :
    DescribedDelegationToken41.wire version (t.seen version t0) = DescribedDelegationToken41.wire version t :=
  app_congr (app_congr (app_congr (app_congr (app_congr (app_congr (app_congr (rfl) (rfl)) (rfl)) (rfl)) (rfl)) (rfl)) (rfl)) (again_structs (fun x => DescribedDelegationTokenRenewer41.again version x {}) t.Renewers)
theorem DescribedDelegationToken41.lawful : Lawful DescribedDelegationToken41.type DescribedDelegationToken41.layout :=
  ⟨DescribedDelegationToken41.emits, DescribedDelegationToken41.sized, DescribedDelegationToken41.reads, DescribedDelegationToken41.tame, DescribedDelegationToken41.calm, DescribedDelegationToken41.canon, DescribedDelegationToken41.again⟩

theorem DescribeDelegationTokenResponse.emits (version : Int16) (t : DescribeDelegationTokenResponse) :
    Emits (DescribeDelegationTokenResponse.encode version t) (DescribeDelegationTokenResponse.wire version t) :=
  (emits_int16 t.ErrorCode)
    |>.andThen (emits_structs (DescribedDelegationToken41.emits version) t.Tokens)
    |>.andThen (emits_int32 t.ThrottleTimeMs)
theorem DescribeDelegationTokenResponse.sized (version : Int16) (t : DescribeDelegationTokenResponse) :
    Sized (DescribeDelegationTokenResponse.size version t) (DescribeDelegationTokenResponse.wire version t) :=
  Grows.sized ((Grows.add (sized_int16 t.ErrorCode))
    |>.andThen (Grows.structs (DescribedDelegationToken41.sized version) t.Tokens)
    |>.andThen (Grows.add (sized_int32 t.ThrottleTimeMs)))
theorem DescribeDelegationTokenResponse.reads (version : Int16) (t : DescribeDelegationTokenResponse) (h : t.Fits version) (t0 : DescribeDelegationTokenResponse) :
    Reads (DescribeDelegationTokenResponse.decode version t0) (DescribeDelegationTokenResponse.wire version t) (t.seen version t0) :=
  ((Step.field (set := fun (t : DescribeDelegationTokenResponse) x => { t with ErrorCode := x }) (reads_int16 t.ErrorCode))
    |>.andThen (Step.structs (get := fun (t : DescribeDelegationTokenResponse) => t.Tokens) (set := fun (t : DescribeDelegationTokenResponse) x => { t with Tokens := x }) (fun x hx => DescribedDelegationToken41.reads version x hx {}) h.Tokens)
    |>.andThen (Step.field (set := fun (t : DescribeDelegationTokenResponse) x => { t with ThrottleTimeMs := x }) (reads_int32 t.ThrottleTimeMs)) : Step _ _ _) t0
theorem DescribeDelegationTokenResponse.tame (version : Int16) (t0 : DescribeDelegationTokenResponse) : Tame (DescribeDelegationTokenResponse.decode version t0) :=
  ((TameStep.field tame_int16)
    |>.andThen (TameStep.structs (DescribedDelegationToken41.tame version {}))
    |>.andThen (TameStep.field tame_int32) : TameStep _) t0
theorem DescribeDelegationTokenResponse.calm (version : Int16) (t0 : DescribeDelegationTokenResponse) :
    Calm (DescribeDelegationTokenResponse.decode version t0) (fun _ => True) :=
  ((CalmStep.field tame_int16 calm_int16)
    |>.andThen (CalmStep.structs (DescribedDelegationToken41.tame version {}) (DescribedDelegationToken41.calm version {}))
    |>.andThen (CalmStep.field tame_int32 calm_int32) : CalmStep _).2 t0
theorem DescribeDelegationTokenResponse.canon (version : Int16) (t : DescribeDelegationTokenResponse) (h : t.Canon version) :
    t.seen version {} = t :=
  DescribeDelegationTokenResponse.ext rfl (canon_structs (DescribedDelegationToken41.canon version) h.Tokens) rfl
theorem DescribeDelegationTokenResponse.again (version : Int16) (t t0 : DescribeDelegationTokenResponse) :
    DescribeDelegationTokenResponse.wire version (t.seen version t0) = DescribeDelegationTokenResponse.wire version t :=
  app_congr (app_congr (rfl) (again_structs (fun x => DescribedDelegationToken41.again version x {}) t.Tokens)) (rfl)
theorem DescribeDelegationTokenResponse.lawful : Lawful DescribeDelegationTokenResponse.type DescribeDelegationTokenResponse.layout :=
  ⟨DescribeDelegationTokenResponse.emits, DescribeDelegationTokenResponse.sized, DescribeDelegationTokenResponse.reads, DescribeDelegationTokenResponse.tame, DescribeDelegationTokenResponse.calm, DescribeDelegationTokenResponse.canon, DescribeDelegationTokenResponse.again⟩

end Kafka.Msg
