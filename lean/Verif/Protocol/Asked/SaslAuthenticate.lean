import Verif.Protocol.Conform.SaslAuthenticate
/-!
Generated by tools/gen_protocol.py: the SaslAuthenticate request is read as the protocol says.
-/
namespace Kafka.Msg

open Protocol

/-- What `SaslAuthenticateRequest` holds after reading the value `x` into `t0`. -/
def SaslAuthenticateRequest.of (_v : Int16) (x : Val) (_t0 : SaslAuthenticateRequest) : SaslAuthenticateRequest :=
  { AuthBytes := (x.get "AuthBytes").toBytes }

theorem SaslAuthenticateRequest.decodes {v : Int16} (hv : 0 ≤ v) (x : Val) (h : Protocol.SaslAuthenticateRequest.Valid false v x) (t0 : SaslAuthenticateRequest) :
    Reads (SaslAuthenticateRequest.decode v t0) (Protocol.SaslAuthenticateRequest.wire false v x) (SaslAuthenticateRequest.of v x t0) :=
  Reads.congr (((Step.field (set := fun (t : SaslAuthenticateRequest) x => { t with AuthBytes := x }) (read_bytes (Fields.Valid.head (h) hv))) : Step _ _ _) t0)
    (Writes.eq (fs := Protocol.SaslAuthenticateRequest) (v := v) (x := x) <| Writes.all hv rfl <| Writes.done).symm rfl

theorem SaslAuthenticateRequest.parses {v : Int16} (hv : 0 ≤ v) (t0 : SaslAuthenticateRequest) :
    Parses (SaslAuthenticateRequest.decode v t0) ((Ty.struct Protocol.SaslAuthenticateRequest).parse v) (fun x => SaslAuthenticateRequest.of v x t0) :=
  FParses.parses (fs := Protocol.SaslAuthenticateRequest)
    (FParses.field hv (set := fun (t : SaslAuthenticateRequest) x => { t with AuthBytes := x }) par_bytes <|
    FParses.done)
    (by simp only [SaslAuthenticateRequest.decode, Dec.andThen_nop]) (Fields.distinct_nodup _ (by decide +kernel)) (fun _ _ => rfl) t0

theorem SaslAuthenticateRequest.shown {v : Int16} (hv : 0 ≤ v) (x : Val) (h : Protocol.SaslAuthenticateRequest.Typed v x) :
    Protocol.SaslAuthenticateRequest.shows v x (SaslAuthenticateRequest.val (SaslAuthenticateRequest.of v x {})) = true :=
  Shows.all hv (show_bytes (Fields.Typed.head (h) hv)) <|
    rfl

end Kafka.Msg
