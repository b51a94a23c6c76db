import Verif.Protocol.Conform.ApiVersions
/-!
Generated by tools/gen_protocol.py: the ApiVersions request is read as the protocol says.
-/
namespace Kafka.Msg

open Protocol

/-- What `ApiVersionsRequest` holds after reading the value `x` into `t0`. -/
def ApiVersionsRequest.of (v : Int16) (x : Val) (t0 : ApiVersionsRequest) : ApiVersionsRequest :=
  { ClientSoftwareName := if v ≥ 3 then (x.get "ClientSoftwareName").toStr else t0.ClientSoftwareName,
    ClientSoftwareVersion := if v ≥ 3 then (x.get "ClientSoftwareVersion").toStr else t0.ClientSoftwareVersion }

theorem ApiVersionsRequest.decodes {v : Int16} (_hv : 0 ≤ v) (x : Val) (h : Protocol.ApiVersionsRequest.Valid false v x) (t0 : ApiVersionsRequest) :
    Reads (ApiVersionsRequest.decode v t0) (Protocol.ApiVersionsRequest.wire false v x) (ApiVersionsRequest.of v x t0) :=
  Reads.congr (((Step.optField (c := v ≥ 3) (set := fun (t : ApiVersionsRequest) x => { t with ClientSoftwareName := x }) (·.ClientSoftwareName) (fun _ => rfl) fun hc => read_string (Fields.Valid.head (h) hc))
      |>.andThen (Step.optField (c := v ≥ 3) (set := fun (t : ApiVersionsRequest) x => { t with ClientSoftwareVersion := x }) (·.ClientSoftwareVersion) (fun _ => rfl) fun hc => read_string (Fields.Valid.head (Fields.Valid.tail h) hc)) : Step _ _ _) t0)
    (Writes.eq (fs := Protocol.ApiVersionsRequest) (v := v) (x := x) <| Writes.since rfl <| Writes.since rfl <| Writes.done).symm rfl

theorem ApiVersionsRequest.parses {v : Int16} (_hv : 0 ≤ v) (t0 : ApiVersionsRequest) :
    Parses (ApiVersionsRequest.decode v t0) ((Ty.struct Protocol.ApiVersionsRequest).parse v) (fun x => ApiVersionsRequest.of v x t0) :=
  FParses.parses (fs := Protocol.ApiVersionsRequest)
    (FParses.optField (c := v ≥ 3) Iff.rfl (set := fun (t : ApiVersionsRequest) x => { t with ClientSoftwareName := x }) (·.ClientSoftwareName) (fun _ => rfl) par_string <|
    FParses.optField (c := v ≥ 3) Iff.rfl (set := fun (t : ApiVersionsRequest) x => { t with ClientSoftwareVersion := x }) (·.ClientSoftwareVersion) (fun _ => rfl) par_string <|
    FParses.done)
    (by simp only [ApiVersionsRequest.decode, Dec.andThen_nop]) (Fields.distinct_nodup _ (by decide +kernel)) (fun _ _ => rfl) t0

theorem ApiVersionsRequest.shown {v : Int16} (_hv : 0 ≤ v) (x : Val) (h : Protocol.ApiVersionsRequest.Typed v x) :
    Protocol.ApiVersionsRequest.shows v x (ApiVersionsRequest.val (ApiVersionsRequest.of v x {})) = true :=
  Shows.since (fun s => .str (some s)) rfl (fun hc => show_string (Fields.Typed.head (h) hc)) rfl <|
    Shows.since (fun s => .str (some s)) rfl (fun hc => show_string (Fields.Typed.head (Fields.Typed.tail h) hc)) rfl <|
    rfl

end Kafka.Msg
