import Verif.Protocol.Conform.RenewDelegationToken
/-!
Generated by tools/gen_protocol.py: the RenewDelegationToken request is read as the protocol says.
-/
namespace Kafka.Msg

open Protocol

/-- What `RenewDelegationTokenRequest` holds after reading the value `x` into `t0`. -/
def RenewDelegationTokenRequest.of (_v : Int16) (x : Val) (_t0 : RenewDelegationTokenRequest) : RenewDelegationTokenRequest :=
  { Hmac := (x.get "Hmac").toBytes,
    RenewPeriodMs := (x.get "RenewPeriodMs").toInt64 }

theorem RenewDelegationTokenRequest.decodes {v : Int16} (hv : 0 ≤ v) (x : Val) (h : Protocol.RenewDelegationTokenRequest.Valid false v x) (t0 : RenewDelegationTokenRequest) :
    Reads (RenewDelegationTokenRequest.decode v t0) (Protocol.RenewDelegationTokenRequest.wire false v x) (RenewDelegationTokenRequest.of v x t0) :=
  Reads.congr (((Step.field (set := fun (t : RenewDelegationTokenRequest) x => { t with Hmac := x }) (read_bytes (Fields.Valid.head (h) hv)))
      |>.andThen (Step.field (set := fun (t : RenewDelegationTokenRequest) x => { t with RenewPeriodMs := x }) (read_int64 (Fields.Valid.head (Fields.Valid.tail h) hv))) : Step _ _ _) t0)
    (Writes.eq (fs := Protocol.RenewDelegationTokenRequest) (v := v) (x := x) <| Writes.all hv rfl <| Writes.all hv rfl <| Writes.done).symm rfl

theorem RenewDelegationTokenRequest.parses {v : Int16} (hv : 0 ≤ v) (t0 : RenewDelegationTokenRequest) :
    Parses (RenewDelegationTokenRequest.decode v t0) ((Ty.struct Protocol.RenewDelegationTokenRequest).parse v) (fun x => RenewDelegationTokenRequest.of v x t0) :=
  FParses.parses (fs := Protocol.RenewDelegationTokenRequest)
    (FParses.field hv (set := fun (t : RenewDelegationTokenRequest) x => { t with Hmac := x }) par_bytes <|
    FParses.field hv (set := fun (t : RenewDelegationTokenRequest) x => { t with RenewPeriodMs := x }) par_int64 <|
    FParses.done)
    (by simp only [RenewDelegationTokenRequest.decode, Dec.andThen_nop]) (Fields.distinct_nodup _ (by decide +kernel)) (fun _ _ => rfl) t0

theorem RenewDelegationTokenRequest.shown {v : Int16} (hv : 0 ≤ v) (x : Val) (h : Protocol.RenewDelegationTokenRequest.Typed v x) :
    Protocol.RenewDelegationTokenRequest.shows v x (RenewDelegationTokenRequest.val (RenewDelegationTokenRequest.of v x {})) = true :=
  Shows.all hv (show_bytes (Fields.Typed.head (h) hv)) <|
    Shows.all hv (show_int64 (Fields.Typed.head (Fields.Typed.tail h) hv)) <|
    rfl

end Kafka.Msg
