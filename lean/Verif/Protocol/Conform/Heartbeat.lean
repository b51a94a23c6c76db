import Verif.Protocol.ParseLemmas
import Verif.Gen.Spec.Heartbeat
/-!
Generated by tools/gen_protocol.py: the Heartbeat messages are written and read as the protocol says.
-/
namespace Kafka.Msg

open Protocol

/-- `HeartbeatRequest` as a value of the protocol. -/
def HeartbeatRequest.val (t : HeartbeatRequest) : Val :=
  .struct [("GroupId", .str (some t.GroupId)),
    ("GenerationId", .int32 t.GenerationId),
    ("MemberId", .str (some t.MemberId)),
    ("GroupInstanceId", .str (some t.GroupInstanceId))]

theorem HeartbeatRequest.conforms {v : Int16} (hv : 0 ≤ v) (t : HeartbeatRequest) :
    Protocol.HeartbeatRequest.wire false v (HeartbeatRequest.val t) = HeartbeatRequest.wire v t :=
  Writes.eq <|
    Writes.all hv (Protocol.wire_string v t.GroupId) <|
    Writes.all hv (Protocol.wire_int32 v t.GenerationId) <|
    Writes.all hv (Protocol.wire_string v t.MemberId) <|
    Writes.since (Protocol.wire_string v t.GroupInstanceId) <|
    Writes.done

/-- There is nothing that may not be nil. -/
def HeartbeatRequest.Full (_v : Int16) (_t : HeartbeatRequest) : Prop := True

theorem HeartbeatRequest.valid {v : Int16} (_hv : 0 ≤ v) (t : HeartbeatRequest) (h : t.Fits v) (_hf : t.Full v) :
    Protocol.HeartbeatRequest.Valid true v (HeartbeatRequest.val t) :=
  Valids.all (valid_string (h.GroupId)) <|
    Valids.all trivial <|
    Valids.all (valid_string (h.MemberId)) <|
    Valids.since (fun hc => valid_string (h.GroupInstanceId hc)) <|
    trivial

/-- `HeartbeatResponse` as a value of the protocol. -/
def HeartbeatResponse.val (t : HeartbeatResponse) : Val :=
  .struct [("ThrottleTimeMs", .int32 t.ThrottleTimeMs),
    ("ErrorCode", .int16 t.ErrorCode)]

theorem HeartbeatResponse.conforms {v : Int16} (hv : 0 ≤ v) (t : HeartbeatResponse) :
    Protocol.HeartbeatResponse.wire false v (HeartbeatResponse.val t) = HeartbeatResponse.wire v t :=
  Writes.eq <|
    Writes.since (Protocol.wire_int32 v t.ThrottleTimeMs) <|
    Writes.all hv (Protocol.wire_int16 v t.ErrorCode) <|
    Writes.done

/-- There is nothing that may not be nil. -/
def HeartbeatResponse.Full (_v : Int16) (_t : HeartbeatResponse) : Prop := True

theorem HeartbeatResponse.valid {v : Int16} (_hv : 0 ≤ v) (t : HeartbeatResponse) (_h : t.Fits v) (_hf : t.Full v) :
    Protocol.HeartbeatResponse.Valid true v (HeartbeatResponse.val t) :=
  Valids.since (fun _ => trivial) <|
    Valids.all trivial <|
    trivial

/-- What `HeartbeatResponse` holds after reading the value `x` into `t0`. -/
def HeartbeatResponse.of (v : Int16) (x : Val) (t0 : HeartbeatResponse) : HeartbeatResponse :=
  { ThrottleTimeMs := if v ≥ 1 then (x.get "ThrottleTimeMs").toInt32 else t0.ThrottleTimeMs,
    ErrorCode := (x.get "ErrorCode").toInt16 }

theorem HeartbeatResponse.decodes {v : Int16} (hv : 0 ≤ v) (x : Val) (h : Protocol.HeartbeatResponse.Valid false v x) (t0 : HeartbeatResponse) :
    Reads (HeartbeatResponse.decode v t0) (Protocol.HeartbeatResponse.wire false v x) (HeartbeatResponse.of v x t0) :=
  Reads.congr (((Step.optField (c := v ≥ 1) (set := fun (t : HeartbeatResponse) x => { t with ThrottleTimeMs := x }) (·.ThrottleTimeMs) (fun _ => rfl) fun hc => read_int32 (Fields.Valid.head (h) hc))
      |>.andThen (Step.field (set := fun (t : HeartbeatResponse) x => { t with ErrorCode := x }) (read_int16 (Fields.Valid.head (Fields.Valid.tail h) hv))) : Step _ _ _) t0)
    (Writes.eq (fs := Protocol.HeartbeatResponse) (v := v) (x := x) <| Writes.since rfl <| Writes.all hv rfl <| Writes.done).symm rfl

theorem HeartbeatResponse.parses {v : Int16} (hv : 0 ≤ v) (t0 : HeartbeatResponse) :
    Parses (HeartbeatResponse.decode v t0) ((Ty.struct Protocol.HeartbeatResponse).parse v) (fun x => HeartbeatResponse.of v x t0) :=
  FParses.parses (fs := Protocol.HeartbeatResponse)
    (FParses.optField (c := v ≥ 1) Iff.rfl (set := fun (t : HeartbeatResponse) x => { t with ThrottleTimeMs := x }) (·.ThrottleTimeMs) (fun _ => rfl) par_int32 <|
    FParses.field hv (set := fun (t : HeartbeatResponse) x => { t with ErrorCode := x }) par_int16 <|
    FParses.done)
    (by simp only [HeartbeatResponse.decode, Dec.andThen_nop]) (Fields.distinct_nodup _ (by decide +kernel)) (fun _ _ => rfl) t0

theorem HeartbeatResponse.shown {v : Int16} (hv : 0 ≤ v) (x : Val) (h : Protocol.HeartbeatResponse.Typed v x) :
    Protocol.HeartbeatResponse.shows v x (HeartbeatResponse.val (HeartbeatResponse.of v x {})) = true :=
  Shows.since (.int32) rfl (fun hc => show_int32 (Fields.Typed.head (h) hc)) rfl <|
    Shows.all hv (show_int16 (Fields.Typed.head (Fields.Typed.tail h) hv)) <|
    rfl

end Kafka.Msg
