import Verif.Protocol.Conform.SaslHandshake
/-!
Generated by tools/gen_protocol.py: the SaslHandshake request is read as the protocol says.
-/
namespace Kafka.Msg

open Protocol

/-- What `SaslHandshakeRequest` holds after reading the value `x` into `t0`. -/
def SaslHandshakeRequest.of (_v : Int16) (x : Val) (_t0 : SaslHandshakeRequest) : SaslHandshakeRequest :=
  { Mechanism := (x.get "Mechanism").toStr }

theorem SaslHandshakeRequest.decodes {v : Int16} (hv : 0 ≤ v) (x : Val) (h : Protocol.SaslHandshakeRequest.Valid false v x) (t0 : SaslHandshakeRequest) :
    Reads (SaslHandshakeRequest.decode v t0) (Protocol.SaslHandshakeRequest.wire false v x) (SaslHandshakeRequest.of v x t0) :=
  Reads.congr (((Step.field (set := fun (t : SaslHandshakeRequest) x => { t with Mechanism := x }) (read_string (Fields.Valid.head (h) hv))) : Step _ _ _) t0)
    (Writes.eq (fs := Protocol.SaslHandshakeRequest) (v := v) (x := x) <| Writes.all hv rfl <| Writes.done).symm rfl

theorem SaslHandshakeRequest.parses {v : Int16} (hv : 0 ≤ v) (t0 : SaslHandshakeRequest) :
    Parses (SaslHandshakeRequest.decode v t0) ((Ty.struct Protocol.SaslHandshakeRequest).parse v) (fun x => SaslHandshakeRequest.of v x t0) :=
  FParses.parses (fs := Protocol.SaslHandshakeRequest)
    (FParses.field hv (set := fun (t : SaslHandshakeRequest) x => { t with Mechanism := x }) par_string <|
    FParses.done)
    (by simp only [SaslHandshakeRequest.decode, Dec.andThen_nop]) (Fields.distinct_nodup _ (by decide +kernel)) (fun _ _ => rfl) t0

theorem SaslHandshakeRequest.shown {v : Int16} (hv : 0 ≤ v) (x : Val) (h : Protocol.SaslHandshakeRequest.Typed v x) :
    Protocol.SaslHandshakeRequest.shows v x (SaslHandshakeRequest.val (SaslHandshakeRequest.of v x {})) = true :=
  Shows.all hv (show_string (Fields.Typed.head (h) hv)) <|
    rfl

end Kafka.Msg
