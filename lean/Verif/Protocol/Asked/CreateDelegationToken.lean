import Verif.Protocol.Conform.CreateDelegationToken
/-!
Generated by tools/gen_protocol.py: the CreateDelegationToken request is read as the protocol says.
-/
namespace Kafka.Msg

open Protocol

/-- What `CreatableRenewers38` holds after reading the value `x` into `t0`. -/
def CreatableRenewers38.of (_v : Int16) (x : Val) (_t0 : CreatableRenewers38) : CreatableRenewers38 :=
  { PrincipalType := (x.get "PrincipalType").toStr,
    PrincipalName := (x.get "PrincipalName").toStr }

theorem CreatableRenewers38.decodes {v : Int16} (hv : 0 ≤ v) (x : Val) (h : Protocol.CreatableRenewers.Valid false v x) (t0 : CreatableRenewers38) :
    Reads (CreatableRenewers38.decode v t0) (Protocol.CreatableRenewers.wire false v x) (CreatableRenewers38.of v x t0) :=
  Reads.congr (((Step.field (set := fun (t : CreatableRenewers38) x => { t with PrincipalType := x }) (read_string (Fields.Valid.head (h) hv)))
      |>.andThen (Step.field (set := fun (t : CreatableRenewers38) x => { t with PrincipalName := x }) (read_string (Fields.Valid.head (Fields.Valid.tail h) hv))) : Step _ _ _) t0)
    (Writes.eq (fs := Protocol.CreatableRenewers) (v := v) (x := x) <| Writes.all hv rfl <| Writes.all hv rfl <| Writes.done).symm rfl

theorem CreatableRenewers38.parses {v : Int16} (hv : 0 ≤ v) (t0 : CreatableRenewers38) :
    Parses (CreatableRenewers38.decode v t0) ((Ty.struct Protocol.CreatableRenewers).parse v) (fun x => CreatableRenewers38.of v x t0) :=
  FParses.parses (fs := Protocol.CreatableRenewers)
    (FParses.field hv (set := fun (t : CreatableRenewers38) x => { t with PrincipalType := x }) par_string <|
    FParses.field hv (set := fun (t : CreatableRenewers38) x => { t with PrincipalName := x }) par_string <|
    FParses.done)
    (by simp only [CreatableRenewers38.decode, Dec.andThen_nop]) (Fields.distinct_nodup _ (by decide +kernel)) (fun _ _ => rfl) t0

theorem CreatableRenewers38.shown {v : Int16} (hv : 0 ≤ v) (x : Val) (h : Protocol.CreatableRenewers.Typed v x) :
    Protocol.CreatableRenewers.shows v x (CreatableRenewers38.val (CreatableRenewers38.of v x {})) = true :=
  Shows.all hv (show_string (Fields.Typed.head (h) hv)) <|
    Shows.all hv (show_string (Fields.Typed.head (Fields.Typed.tail h) hv)) <|
    rfl

/-- What `CreateDelegationTokenRequest` holds after reading the value `x` into `t0`. -/
def CreateDelegationTokenRequest.of (v : Int16) (x : Val) (t0 : CreateDelegationTokenRequest) : CreateDelegationTokenRequest :=
  { Renewers := (x.get "Renewers").toSliceOr (fun y => CreatableRenewers38.of v y {}) t0.Renewers,
    MaxLifetimeMs := (x.get "MaxLifetimeMs").toInt64 }

theorem CreateDelegationTokenRequest.decodes {v : Int16} (hv : 0 ≤ v) (x : Val) (h : Protocol.CreateDelegationTokenRequest.Valid false v x) (t0 : CreateDelegationTokenRequest) :
    Reads (CreateDelegationTokenRequest.decode v t0) (Protocol.CreateDelegationTokenRequest.wire false v x) (CreateDelegationTokenRequest.of v x t0) :=
  Reads.congr (((Step.readStructs (get := fun (t : CreateDelegationTokenRequest) => t.Renewers) (set := fun (t : CreateDelegationTokenRequest) x => { t with Renewers := x }) (fun y hy => CreatableRenewers38.decodes hv y hy {}) (Fields.Valid.head (h) hv))
      |>.andThen (Step.field (set := fun (t : CreateDelegationTokenRequest) x => { t with MaxLifetimeMs := x }) (read_int64 (Fields.Valid.head (Fields.Valid.tail h) hv))) : Step _ _ _) t0)
    (Writes.eq (fs := Protocol.CreateDelegationTokenRequest) (v := v) (x := x) <| Writes.all hv rfl <| Writes.all hv rfl <| Writes.done).symm rfl

theorem CreateDelegationTokenRequest.parses {v : Int16} (hv : 0 ≤ v) (t0 : CreateDelegationTokenRequest) :
    Parses (CreateDelegationTokenRequest.decode v t0) ((Ty.struct Protocol.CreateDelegationTokenRequest).parse v) (fun x => CreateDelegationTokenRequest.of v x t0) :=
  FParses.parses (fs := Protocol.CreateDelegationTokenRequest)
    (FParses.structs hv (get := fun (t : CreateDelegationTokenRequest) => t.Renewers) (set := fun (t : CreateDelegationTokenRequest) x => { t with Renewers := x }) (CreatableRenewers38.parses hv {}) <|
    FParses.field hv (set := fun (t : CreateDelegationTokenRequest) x => { t with MaxLifetimeMs := x }) par_int64 <|
    FParses.done)
    (by simp only [CreateDelegationTokenRequest.decode, Dec.andThen_nop]) (Fields.distinct_nodup _ (by decide +kernel)) (fun _ _ => rfl) t0

theorem CreateDelegationTokenRequest.shown {v : Int16} (hv : 0 ≤ v) (x : Val) (h : Protocol.CreateDelegationTokenRequest.Typed v x) :
    Protocol.CreateDelegationTokenRequest.shows v x (CreateDelegationTokenRequest.val (CreateDelegationTokenRequest.of v x {})) = true :=
  Shows.all hv (show_structs (f := CreatableRenewers38.val) (g := fun y => CreatableRenewers38.of v y {}) (fun y hy => CreatableRenewers38.shown hv y hy) (Fields.Typed.head (h) hv)) <|
    Shows.all hv (show_int64 (Fields.Typed.head (Fields.Typed.tail h) hv)) <|
    rfl

end Kafka.Msg
