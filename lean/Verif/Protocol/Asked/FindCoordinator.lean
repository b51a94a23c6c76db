import Verif.Protocol.Conform.FindCoordinator
/-!
Generated by tools/gen_protocol.py: the FindCoordinator request is read as the protocol says.
-/
namespace Kafka.Msg

open Protocol

/-- What `FindCoordinatorRequest` holds after reading the value `x` into `t0`. -/
def FindCoordinatorRequest.of (v : Int16) (x : Val) (t0 : FindCoordinatorRequest) : FindCoordinatorRequest :=
  { Key := (x.get "Key").toStr,
    KeyType := if v ≥ 1 then (x.get "KeyType").toInt8 else t0.KeyType }

theorem FindCoordinatorRequest.decodes {v : Int16} (hv : 0 ≤ v) (x : Val) (h : Protocol.FindCoordinatorRequest.Valid false v x) (t0 : FindCoordinatorRequest) :
    Reads (FindCoordinatorRequest.decode v t0) (Protocol.FindCoordinatorRequest.wire false v x) (FindCoordinatorRequest.of v x t0) :=
  Reads.congr (((Step.field (set := fun (t : FindCoordinatorRequest) x => { t with Key := x }) (read_string (Fields.Valid.head (h) hv)))
      |>.andThen (Step.optField (c := v ≥ 1) (set := fun (t : FindCoordinatorRequest) x => { t with KeyType := x }) (·.KeyType) (fun _ => rfl) fun hc => read_int8 (Fields.Valid.head (Fields.Valid.tail h) hc)) : Step _ _ _) t0)
    (Writes.eq (fs := Protocol.FindCoordinatorRequest) (v := v) (x := x) <| Writes.all hv rfl <| Writes.since rfl <| Writes.done).symm rfl

theorem FindCoordinatorRequest.parses {v : Int16} (hv : 0 ≤ v) (t0 : FindCoordinatorRequest) :
    Parses (FindCoordinatorRequest.decode v t0) ((Ty.struct Protocol.FindCoordinatorRequest).parse v) (fun x => FindCoordinatorRequest.of v x t0) :=
  FParses.parses (fs := Protocol.FindCoordinatorRequest)
    (FParses.field hv (set := fun (t : FindCoordinatorRequest) x => { t with Key := x }) par_string <|
    FParses.optField (c := v ≥ 1) Iff.rfl (set := fun (t : FindCoordinatorRequest) x => { t with KeyType := x }) (·.KeyType) (fun _ => rfl) par_int8 <|
    FParses.done)
    (by simp only [FindCoordinatorRequest.decode, Dec.andThen_nop]) (Fields.distinct_nodup _ (by decide +kernel)) (fun _ _ => rfl) t0

theorem FindCoordinatorRequest.shown {v : Int16} (hv : 0 ≤ v) (x : Val) (h : Protocol.FindCoordinatorRequest.Typed v x) :
    Protocol.FindCoordinatorRequest.shows v x (FindCoordinatorRequest.val (FindCoordinatorRequest.of v x {})) = true :=
  Shows.all hv (show_string (Fields.Typed.head (h) hv)) <|
    Shows.since (.int8) rfl (fun hc => show_int8 (Fields.Typed.head (Fields.Typed.tail h) hc)) rfl <|
    rfl

end Kafka.Msg
