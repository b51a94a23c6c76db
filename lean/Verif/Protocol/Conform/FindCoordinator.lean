import Verif.Protocol.ParseLemmas
import Verif.Gen.Spec.FindCoordinator
/-!
Generated by tools/gen_protocol.py: the FindCoordinator messages are written and read as the protocol says.
-/
namespace Kafka.Msg

open Protocol

/-- `FindCoordinatorRequest` as a value of the protocol. -/
def FindCoordinatorRequest.val (t : FindCoordinatorRequest) : Val :=
  .struct [("Key", .str (some t.Key)),
    ("KeyType", .int8 t.KeyType)]

theorem FindCoordinatorRequest.conforms {v : Int16} (hv : 0 ≤ v) (t : FindCoordinatorRequest) :
    Protocol.FindCoordinatorRequest.wire false v (FindCoordinatorRequest.val t) = FindCoordinatorRequest.wire v t :=
  Writes.eq <|
    Writes.all hv (Protocol.wire_string v t.Key) <|
    Writes.since (Protocol.wire_int8 v t.KeyType) <|
    Writes.done

/-- There is nothing that may not be nil. -/
def FindCoordinatorRequest.Full (_v : Int16) (_t : FindCoordinatorRequest) : Prop := True

theorem FindCoordinatorRequest.valid {v : Int16} (_hv : 0 ≤ v) (t : FindCoordinatorRequest) (h : t.Fits v) (_hf : t.Full v) :
    Protocol.FindCoordinatorRequest.Valid true v (FindCoordinatorRequest.val t) :=
  Valids.all (valid_string (h.Key)) <|
    Valids.since (fun _ => trivial) <|
    trivial

/-- `FindCoordinatorResponse` as a value of the protocol. -/
def FindCoordinatorResponse.val (t : FindCoordinatorResponse) : Val :=
  .struct [("ThrottleTimeMs", .int32 t.ThrottleTimeMs),
    ("ErrorCode", .int16 t.ErrorCode),
    ("ErrorMessage", .str (some t.ErrorMessage)),
    ("NodeId", .int32 t.NodeId),
    ("Host", .str (some t.Host)),
    ("Port", .int32 t.Port)]

theorem FindCoordinatorResponse.conforms {v : Int16} (hv : 0 ≤ v) (t : FindCoordinatorResponse) :
    Protocol.FindCoordinatorResponse.wire false v (FindCoordinatorResponse.val t) = FindCoordinatorResponse.wire v t :=
  Writes.eq <|
    Writes.since (Protocol.wire_int32 v t.ThrottleTimeMs) <|
    Writes.all hv (Protocol.wire_int16 v t.ErrorCode) <|
    Writes.since (Protocol.wire_string v t.ErrorMessage) <|
    Writes.all hv (Protocol.wire_int32 v t.NodeId) <|
    Writes.all hv (Protocol.wire_string v t.Host) <|
    Writes.all hv (Protocol.wire_int32 v t.Port) <|
    Writes.done

/-- There is nothing that may not be nil. -/
def FindCoordinatorResponse.Full (_v : Int16) (_t : FindCoordinatorResponse) : Prop := True

theorem FindCoordinatorResponse.valid {v : Int16} (_hv : 0 ≤ v) (t : FindCoordinatorResponse) (h : t.Fits v) (_hf : t.Full v) :
    Protocol.FindCoordinatorResponse.Valid true v (FindCoordinatorResponse.val t) :=
  Valids.since (fun _ => trivial) <|
    Valids.all trivial <|
    Valids.since (fun hc => valid_string (h.ErrorMessage hc)) <|
    Valids.all trivial <|
    Valids.all (valid_string (h.Host)) <|
    Valids.all trivial <|
    trivial

/-- What `FindCoordinatorResponse` holds after reading the value `x` into `t0`. -/
def FindCoordinatorResponse.of (v : Int16) (x : Val) (t0 : FindCoordinatorResponse) : FindCoordinatorResponse :=
  { ThrottleTimeMs := if v ≥ 1 then (x.get "ThrottleTimeMs").toInt32 else t0.ThrottleTimeMs,
    ErrorCode := (x.get "ErrorCode").toInt16,
    ErrorMessage := if v ≥ 1 then (x.get "ErrorMessage").toStr else t0.ErrorMessage,
    NodeId := (x.get "NodeId").toInt32,
    Host := (x.get "Host").toStr,
    Port := (x.get "Port").toInt32 }

theorem FindCoordinatorResponse.decodes {v : Int16} (hv : 0 ≤ v) (x : Val) (h : Protocol.FindCoordinatorResponse.Valid false v x) (t0 : FindCoordinatorResponse) :
    Reads (FindCoordinatorResponse.decode v t0) (Protocol.FindCoordinatorResponse.wire false v x) (FindCoordinatorResponse.of v x t0) :=
  Reads.congr (((Step.optField (c := v ≥ 1) (set := fun (t : FindCoordinatorResponse) x => { t with ThrottleTimeMs := x }) (·.ThrottleTimeMs) (fun _ => rfl) fun hc => read_int32 (Fields.Valid.head (h) hc))
      |>.andThen (Step.field (set := fun (t : FindCoordinatorResponse) x => { t with ErrorCode := x }) (read_int16 (Fields.Valid.head (Fields.Valid.tail h) hv)))
      |>.andThen (Step.optField (c := v ≥ 1) (set := fun (t : FindCoordinatorResponse) x => { t with ErrorMessage := x }) (·.ErrorMessage) (fun _ => rfl) fun hc => read_string (Fields.Valid.head (Fields.Valid.tail (Fields.Valid.tail h)) hc))
      |>.andThen (Step.field (set := fun (t : FindCoordinatorResponse) x => { t with NodeId := x }) (read_int32 (Fields.Valid.head (Fields.Valid.tail (Fields.Valid.tail (Fields.Valid.tail h))) hv)))
      |>.andThen (Step.field (set := fun (t : FindCoordinatorResponse) x => { t with Host := x }) (read_string (Fields.Valid.head (Fields.Valid.tail (Fields.Valid.tail (Fields.Valid.tail (Fields.Valid.tail h)))) hv)))
      |>.andThen (Step.field (set := fun (t : FindCoordinatorResponse) x => { t with Port := x }) (read_int32 (Fields.Valid.head (Fields.Valid.tail (Fields.Valid.tail (Fields.Valid.tail (Fields.Valid.tail (Fields.Valid.tail h))))) hv))) : Step _ _ _) t0)
    (Writes.eq (fs := Protocol.FindCoordinatorResponse) (v := v) (x := x) <| Writes.since rfl <| Writes.all hv rfl <| Writes.since rfl <| Writes.all hv rfl <| Writes.all hv rfl <| Writes.all hv rfl <| Writes.done).symm rfl

theorem FindCoordinatorResponse.parses {v : Int16} (hv : 0 ≤ v) (t0 : FindCoordinatorResponse) :
    Parses (FindCoordinatorResponse.decode v t0) ((Ty.struct Protocol.FindCoordinatorResponse).parse v) (fun x => FindCoordinatorResponse.of v x t0) :=
  FParses.parses (fs := Protocol.FindCoordinatorResponse)
    (FParses.optField (c := v ≥ 1) Iff.rfl (set := fun (t : FindCoordinatorResponse) x => { t with ThrottleTimeMs := x }) (·.ThrottleTimeMs) (fun _ => rfl) par_int32 <|
    FParses.field hv (set := fun (t : FindCoordinatorResponse) x => { t with ErrorCode := x }) par_int16 <|
    FParses.optField (c := v ≥ 1) Iff.rfl (set := fun (t : FindCoordinatorResponse) x => { t with ErrorMessage := x }) (·.ErrorMessage) (fun _ => rfl) par_string <|
    FParses.field hv (set := fun (t : FindCoordinatorResponse) x => { t with NodeId := x }) par_int32 <|
    FParses.field hv (set := fun (t : FindCoordinatorResponse) x => { t with Host := x }) par_string <|
    FParses.field hv (set := fun (t : FindCoordinatorResponse) x => { t with Port := x }) par_int32 <|
    FParses.done)
    (by simp only [FindCoordinatorResponse.decode, Dec.andThen_assoc, Dec.andThen_nop]) (Fields.distinct_nodup _ (by decide +kernel)) (fun _ _ => rfl) t0

theorem FindCoordinatorResponse.shown {v : Int16} (hv : 0 ≤ v) (x : Val) (h : Protocol.FindCoordinatorResponse.Typed v x) :
    Protocol.FindCoordinatorResponse.shows v x (FindCoordinatorResponse.val (FindCoordinatorResponse.of v x {})) = true :=
  Shows.since (.int32) rfl (fun hc => show_int32 (Fields.Typed.head (h) hc)) rfl <|
    Shows.all hv (show_int16 (Fields.Typed.head (Fields.Typed.tail h) hv)) <|
    Shows.since (fun s => .str (some s)) rfl (fun hc => show_string (Fields.Typed.head (Fields.Typed.tail (Fields.Typed.tail h)) hc)) rfl <|
    Shows.all hv (show_int32 (Fields.Typed.head (Fields.Typed.tail (Fields.Typed.tail (Fields.Typed.tail h))) hv)) <|
    Shows.all hv (show_string (Fields.Typed.head (Fields.Typed.tail (Fields.Typed.tail (Fields.Typed.tail (Fields.Typed.tail h)))) hv)) <|
    Shows.all hv (show_int32 (Fields.Typed.head (Fields.Typed.tail (Fields.Typed.tail (Fields.Typed.tail (Fields.Typed.tail (Fields.Typed.tail h))))) hv)) <|
    rfl

end Kafka.Msg
