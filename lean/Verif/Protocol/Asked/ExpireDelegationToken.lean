import Verif.Protocol.Conform.ExpireDelegationToken
/-!
Generated by tools/gen_protocol.py: the ExpireDelegationToken request is read as the protocol says.
-/
namespace Kafka.Msg

open Protocol

/-- What `ExpireDelegationTokenRequest` holds after reading the value `x` into `t0`. -/
def ExpireDelegationTokenRequest.of (_v : Int16) (x : Val) (_t0 : ExpireDelegationTokenRequest) : ExpireDelegationTokenRequest :=
  { Hmac := (x.get "Hmac").toBytes,
    ExpiryTimePeriodMs := (x.get "ExpiryTimePeriodMs").toInt64 }

theorem ExpireDelegationTokenRequest.decodes {v : Int16} (hv : 0 ≤ v) (x : Val) (h : Protocol.ExpireDelegationTokenRequest.Valid false v x) (t0 : ExpireDelegationTokenRequest) :
    Reads (ExpireDelegationTokenRequest.decode v t0) (Protocol.ExpireDelegationTokenRequest.wire false v x) (ExpireDelegationTokenRequest.of v x t0) :=
  Reads.congr (((Step.field (set := fun (t : ExpireDelegationTokenRequest) x => { t with Hmac := x }) (read_bytes (Fields.Valid.head (h) hv)))
      |>.andThen (Step.field (set := fun (t : ExpireDelegationTokenRequest) x => { t with ExpiryTimePeriodMs := x }) (read_int64 (Fields.Valid.head (Fields.Valid.tail h) hv))) : Step _ _ _) t0)
    (Writes.eq (fs := Protocol.ExpireDelegationTokenRequest) (v := v) (x := x) <| Writes.all hv rfl <| Writes.all hv rfl <| Writes.done).symm rfl

theorem ExpireDelegationTokenRequest.parses {v : Int16} (hv : 0 ≤ v) (t0 : ExpireDelegationTokenRequest) :
    Parses (ExpireDelegationTokenRequest.decode v t0) ((Ty.struct Protocol.ExpireDelegationTokenRequest).parse v) (fun x => ExpireDelegationTokenRequest.of v x t0) :=
  FParses.parses (fs := Protocol.ExpireDelegationTokenRequest)
    (FParses.field hv (set := fun (t : ExpireDelegationTokenRequest) x => { t with Hmac := x }) par_bytes <|
    FParses.field hv (set := fun (t : ExpireDelegationTokenRequest) x => { t with ExpiryTimePeriodMs := x }) par_int64 <|
    FParses.done)
    (by simp only [ExpireDelegationTokenRequest.decode, Dec.andThen_nop]) (Fields.distinct_nodup _ (by decide +kernel)) (fun _ _ => rfl) t0

theorem ExpireDelegationTokenRequest.shown {v : Int16} (hv : 0 ≤ v) (x : Val) (h : Protocol.ExpireDelegationTokenRequest.Typed v x) :
    Protocol.ExpireDelegationTokenRequest.shows v x (ExpireDelegationTokenRequest.val (ExpireDelegationTokenRequest.of v x {})) = true :=
  Shows.all hv (show_bytes (Fields.Typed.head (h) hv)) <|
    Shows.all hv (show_int64 (Fields.Typed.head (Fields.Typed.tail h) hv)) <|
    rfl

end Kafka.Msg
