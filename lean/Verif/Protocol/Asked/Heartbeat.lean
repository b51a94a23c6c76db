import Verif.Protocol.Conform.Heartbeat
/-!
Generated by tools/gen_protocol.py: the Heartbeat request is read as the protocol says.
-/
namespace Kafka.Msg

open Protocol

/-- What `HeartbeatRequest` holds after reading the value `x` into `t0`. -/
def HeartbeatRequest.of (v : Int16) (x : Val) (t0 : HeartbeatRequest) : HeartbeatRequest :=
  { GroupId := (x.get "GroupId").toStr,
    GenerationId := (x.get "GenerationId").toInt32,
    MemberId := (x.get "MemberId").toStr,
    GroupInstanceId := if v ≥ 3 then (x.get "GroupInstanceId").toStr else t0.GroupInstanceId }

theorem HeartbeatRequest.decodes {v : Int16} (hv : 0 ≤ v) (x : Val) (h : Protocol.HeartbeatRequest.Valid false v x) (t0 : HeartbeatRequest) :
    Reads (HeartbeatRequest.decode v t0) (Protocol.HeartbeatRequest.wire false v x) (HeartbeatRequest.of v x t0) :=
  Reads.congr (((Step.field (set := fun (t : HeartbeatRequest) x => { t with GroupId := x }) (read_string (Fields.Valid.head (h) hv)))
      |>.andThen (Step.field (set := fun (t : HeartbeatRequest) x => { t with GenerationId := x }) (read_int32 (Fields.Valid.head (Fields.Valid.tail h) hv)))
      |>.andThen (Step.field (set := fun (t : HeartbeatRequest) x => { t with MemberId := x }) (read_string (Fields.Valid.head (Fields.Valid.tail (Fields.Valid.tail h)) hv)))
      |>.andThen (Step.optField (c := v ≥ 3) (set := fun (t : HeartbeatRequest) x => { t with GroupInstanceId := x }) (·.GroupInstanceId) (fun _ => rfl) fun hc => read_string (Fields.Valid.head (Fields.Valid.tail (Fields.Valid.tail (Fields.Valid.tail h))) hc)) : Step _ _ _) t0)
    (Writes.eq (fs := Protocol.HeartbeatRequest) (v := v) (x := x) <| Writes.all hv rfl <| Writes.all hv rfl <| Writes.all hv rfl <| Writes.since rfl <| Writes.done).symm rfl

theorem HeartbeatRequest.parses {v : Int16} (hv : 0 ≤ v) (t0 : HeartbeatRequest) :
    Parses (HeartbeatRequest.decode v t0) ((Ty.struct Protocol.HeartbeatRequest).parse v) (fun x => HeartbeatRequest.of v x t0) :=
  FParses.parses (fs := Protocol.HeartbeatRequest)
    (FParses.field hv (set := fun (t : HeartbeatRequest) x => { t with GroupId := x }) par_string <|
    FParses.field hv (set := fun (t : HeartbeatRequest) x => { t with GenerationId := x }) par_int32 <|
    FParses.field hv (set := fun (t : HeartbeatRequest) x => { t with MemberId := x }) par_string <|
    FParses.optField (c := v ≥ 3) Iff.rfl (set := fun (t : HeartbeatRequest) x => { t with GroupInstanceId := x }) (·.GroupInstanceId) (fun _ => rfl) par_string <|
    FParses.done)
    (by simp only [HeartbeatRequest.decode, Dec.andThen_assoc, Dec.andThen_nop]) (Fields.distinct_nodup _ (by decide +kernel)) (fun _ _ => rfl) t0

theorem HeartbeatRequest.shown {v : Int16} (hv : 0 ≤ v) (x : Val) (h : Protocol.HeartbeatRequest.Typed v x) :
    Protocol.HeartbeatRequest.shows v x (HeartbeatRequest.val (HeartbeatRequest.of v x {})) = true :=
  Shows.all hv (show_string (Fields.Typed.head (h) hv)) <|
    Shows.all hv (show_int32 (Fields.Typed.head (Fields.Typed.tail h) hv)) <|
    Shows.all hv (show_string (Fields.Typed.head (Fields.Typed.tail (Fields.Typed.tail h)) hv)) <|
    Shows.since (fun s => .str (some s)) rfl (fun hc => show_string (Fields.Typed.head (Fields.Typed.tail (Fields.Typed.tail (Fields.Typed.tail h))) hc)) rfl <|
    rfl

end Kafka.Msg
