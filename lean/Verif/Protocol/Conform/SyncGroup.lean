import Verif.Protocol.ParseLemmas
import Verif.Gen.Spec.SyncGroup
/-!
Generated by tools/gen_protocol.py: the SyncGroup messages are written and read as the protocol says.
-/
namespace Kafka.Msg

open Protocol

/-- `SyncGroupRequestAssignment14` as a value of the protocol. -/
def SyncGroupRequestAssignment14.val (t : SyncGroupRequestAssignment14) : Val :=
  .struct [("MemberId", .str (some t.MemberId)),
    ("Assignment", .bytes (some t.Assignment.elems))]

theorem SyncGroupRequestAssignment14.conforms {v : Int16} (hv : 0 ≤ v) (t : SyncGroupRequestAssignment14) :
    Protocol.SyncGroupRequestAssignment.wire false v (SyncGroupRequestAssignment14.val t) = SyncGroupRequestAssignment14.wire v t :=
  Writes.eq <|
    Writes.all hv (Protocol.wire_string v t.MemberId) <|
    Writes.all hv (Protocol.wire_bytes v t.Assignment) <|
    Writes.done

/-- There is nothing that may not be nil. -/
def SyncGroupRequestAssignment14.Full (_v : Int16) (_t : SyncGroupRequestAssignment14) : Prop := True

theorem SyncGroupRequestAssignment14.valid {v : Int16} (_hv : 0 ≤ v) (t : SyncGroupRequestAssignment14) (h : t.Fits v) (_hf : t.Full v) :
    Protocol.SyncGroupRequestAssignment.Valid true v (SyncGroupRequestAssignment14.val t) :=
  Valids.all (valid_string (h.MemberId)) <|
    Valids.all (valid_bytes (h.Assignment)) <|
    trivial

/-- `SyncGroupRequest` as a value of the protocol. -/
def SyncGroupRequest.val (t : SyncGroupRequest) : Val :=
  .struct [("GroupId", .str (some t.GroupId)),
    ("GenerationId", .int32 t.GenerationId),
    ("MemberId", .str (some t.MemberId)),
    ("GroupInstanceId", .str (some t.GroupInstanceId)),
    ("Assignments", ofStructs SyncGroupRequestAssignment14.val t.Assignments)]

theorem SyncGroupRequest.conforms {v : Int16} (hv : 0 ≤ v) (t : SyncGroupRequest) :
    Protocol.SyncGroupRequest.wire false v (SyncGroupRequest.val t) = SyncGroupRequest.wire v t :=
  Writes.eq <|
    Writes.all hv (Protocol.wire_string v t.GroupId) <|
    Writes.all hv (Protocol.wire_int32 v t.GenerationId) <|
    Writes.all hv (Protocol.wire_string v t.MemberId) <|
    Writes.since (Protocol.wire_string v t.GroupInstanceId) <|
    Writes.all hv (Protocol.wire_structs v (SyncGroupRequestAssignment14.conforms hv) t.Assignments) <|
    Writes.done

/-- There is nothing that may not be nil. -/
def SyncGroupRequest.Full (_v : Int16) (_t : SyncGroupRequest) : Prop := True

theorem SyncGroupRequest.valid {v : Int16} (hv : 0 ≤ v) (t : SyncGroupRequest) (h : t.Fits v) (_hf : t.Full v) :
    Protocol.SyncGroupRequest.Valid true v (SyncGroupRequest.val t) :=
  Valids.all (valid_string (h.GroupId)) <|
    Valids.all trivial <|
    Valids.all (valid_string (h.MemberId)) <|
    Valids.since (fun hc => valid_string (h.GroupInstanceId hc)) <|
    Valids.all (valid_structs (fun y h hf => SyncGroupRequestAssignment14.valid hv y h hf) (h.Assignments) (fun _ _ => trivial)) <|
    trivial

/-- `SyncGroupResponse` as a value of the protocol. -/
def SyncGroupResponse.val (t : SyncGroupResponse) : Val :=
  .struct [("ThrottleTimeMs", .int32 t.ThrottleTimeMs),
    ("ErrorCode", .int16 t.ErrorCode),
    ("Assignment", .bytes (some t.Assignment.elems))]

theorem SyncGroupResponse.conforms {v : Int16} (hv : 0 ≤ v) (t : SyncGroupResponse) :
    Protocol.SyncGroupResponse.wire false v (SyncGroupResponse.val t) = SyncGroupResponse.wire v t :=
  Writes.eq <|
    Writes.since (Protocol.wire_int32 v t.ThrottleTimeMs) <|
    Writes.all hv (Protocol.wire_int16 v t.ErrorCode) <|
    Writes.all hv (Protocol.wire_bytes v t.Assignment) <|
    Writes.done

/-- There is nothing that may not be nil. -/
def SyncGroupResponse.Full (_v : Int16) (_t : SyncGroupResponse) : Prop := True

theorem SyncGroupResponse.valid {v : Int16} (_hv : 0 ≤ v) (t : SyncGroupResponse) (h : t.Fits v) (_hf : t.Full v) :
    Protocol.SyncGroupResponse.Valid true v (SyncGroupResponse.val t) :=
  Valids.since (fun _ => trivial) <|
    Valids.all trivial <|
    Valids.all (valid_bytes (h.Assignment)) <|
    trivial

/-- What `SyncGroupResponse` holds after reading the value `x` into `t0`. -/
def SyncGroupResponse.of (v : Int16) (x : Val) (t0 : SyncGroupResponse) : SyncGroupResponse :=
  { ThrottleTimeMs := if v ≥ 1 then (x.get "ThrottleTimeMs").toInt32 else t0.ThrottleTimeMs,
    ErrorCode := (x.get "ErrorCode").toInt16,
    Assignment := (x.get "Assignment").toBytes }

theorem SyncGroupResponse.decodes {v : Int16} (hv : 0 ≤ v) (x : Val) (h : Protocol.SyncGroupResponse.Valid false v x) (t0 : SyncGroupResponse) :
    Reads (SyncGroupResponse.decode v t0) (Protocol.SyncGroupResponse.wire false v x) (SyncGroupResponse.of v x t0) :=
  Reads.congr (((Step.optField (c := v ≥ 1) (set := fun (t : SyncGroupResponse) x => { t with ThrottleTimeMs := x }) (·.ThrottleTimeMs) (fun _ => rfl) fun hc => read_int32 (Fields.Valid.head (h) hc))
      |>.andThen (Step.field (set := fun (t : SyncGroupResponse) x => { t with ErrorCode := x }) (read_int16 (Fields.Valid.head (Fields.Valid.tail h) hv)))
      |>.andThen (Step.field (set := fun (t : SyncGroupResponse) x => { t with Assignment := x }) (read_bytes (Fields.Valid.head (Fields.Valid.tail (Fields.Valid.tail h)) hv))) : Step _ _ _) t0)
    (Writes.eq (fs := Protocol.SyncGroupResponse) (v := v) (x := x) <| Writes.since rfl <| Writes.all hv rfl <| Writes.all hv rfl <| Writes.done).symm rfl

theorem SyncGroupResponse.parses {v : Int16} (hv : 0 ≤ v) (t0 : SyncGroupResponse) :
    Parses (SyncGroupResponse.decode v t0) ((Ty.struct Protocol.SyncGroupResponse).parse v) (fun x => SyncGroupResponse.of v x t0) :=
  FParses.parses (fs := Protocol.SyncGroupResponse)
    (FParses.optField (c := v ≥ 1) Iff.rfl (set := fun (t : SyncGroupResponse) x => { t with ThrottleTimeMs := x }) (·.ThrottleTimeMs) (fun _ => rfl) par_int32 <|
    FParses.field hv (set := fun (t : SyncGroupResponse) x => { t with ErrorCode := x }) par_int16 <|
    FParses.field hv (set := fun (t : SyncGroupResponse) x => { t with Assignment := x }) par_bytes <|
    FParses.done)
    (by simp only [SyncGroupResponse.decode, Dec.andThen_assoc, Dec.andThen_nop]) (Fields.distinct_nodup _ (by decide +kernel)) (fun _ _ => rfl) t0

theorem SyncGroupResponse.shown {v : Int16} (hv : 0 ≤ v) (x : Val) (h : Protocol.SyncGroupResponse.Typed v x) :
    Protocol.SyncGroupResponse.shows v x (SyncGroupResponse.val (SyncGroupResponse.of v x {})) = true :=
  Shows.since (.int32) rfl (fun hc => show_int32 (Fields.Typed.head (h) hc)) rfl <|
    Shows.all hv (show_int16 (Fields.Typed.head (Fields.Typed.tail h) hv)) <|
    Shows.all hv (show_bytes (Fields.Typed.head (Fields.Typed.tail (Fields.Typed.tail h)) hv)) <|
    rfl

end Kafka.Msg
