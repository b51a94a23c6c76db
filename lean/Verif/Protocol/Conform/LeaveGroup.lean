import Verif.Protocol.ParseLemmas
import Verif.Gen.Spec.LeaveGroup
/-!
Generated by tools/gen_protocol.py: the LeaveGroup messages are written and read as the protocol says.
-/
namespace Kafka.Msg

open Protocol

/-- `MemberIdentity13` as a value of the protocol. -/
def MemberIdentity13.val (t : MemberIdentity13) : Val :=
  .struct [("MemberId", .str (some t.MemberId)),
    ("GroupInstanceId", .str (some t.GroupInstanceId))]

theorem MemberIdentity13.conforms {v : Int16} (_hv : 0 ≤ v) (t : MemberIdentity13) :
    Protocol.MemberIdentity.wire false v (MemberIdentity13.val t) = MemberIdentity13.wire v t :=
  Writes.eq <|
    Writes.since (Protocol.wire_string v t.MemberId) <|
    Writes.since (Protocol.wire_string v t.GroupInstanceId) <|
    Writes.done

/-- There is nothing that may not be nil. -/
def MemberIdentity13.Full (_v : Int16) (_t : MemberIdentity13) : Prop := True

theorem MemberIdentity13.valid {v : Int16} (_hv : 0 ≤ v) (t : MemberIdentity13) (h : t.Fits v) (_hf : t.Full v) :
    Protocol.MemberIdentity.Valid true v (MemberIdentity13.val t) :=
  Valids.since (fun hc => valid_string (h.MemberId hc)) <|
    Valids.since (fun hc => valid_string (h.GroupInstanceId hc)) <|
    trivial

/-- `LeaveGroupRequest` as a value of the protocol. -/
def LeaveGroupRequest.val (t : LeaveGroupRequest) : Val :=
  .struct [("GroupId", .str (some t.GroupId)),
    ("MemberId", .str (some t.MemberId)),
    ("Members", ofStructs MemberIdentity13.val t.Members)]

theorem LeaveGroupRequest.conforms {v : Int16} (hv : 0 ≤ v) (t : LeaveGroupRequest) :
    Protocol.LeaveGroupRequest.wire false v (LeaveGroupRequest.val t) = LeaveGroupRequest.wire v t :=
  Writes.eq <|
    Writes.all hv (Protocol.wire_string v t.GroupId) <|
    Writes.between (Protocol.wire_string v t.MemberId) <|
    Writes.since (Protocol.wire_structs v (MemberIdentity13.conforms hv) t.Members) <|
    Writes.done

/-- There is nothing that may not be nil. -/
def LeaveGroupRequest.Full (_v : Int16) (_t : LeaveGroupRequest) : Prop := True

theorem LeaveGroupRequest.valid {v : Int16} (hv : 0 ≤ v) (t : LeaveGroupRequest) (h : t.Fits v) (_hf : t.Full v) :
    Protocol.LeaveGroupRequest.Valid true v (LeaveGroupRequest.val t) :=
  Valids.all (valid_string (h.GroupId)) <|
    Valids.between (fun hc => valid_string (h.MemberId hc)) <|
    Valids.since (fun hc => valid_structs (fun y h hf => MemberIdentity13.valid hv y h hf) (h.Members hc) (fun _ _ => trivial)) <|
    trivial

/-- `MemberResponse13` as a value of the protocol. -/
def MemberResponse13.val (t : MemberResponse13) : Val :=
  .struct [("MemberId", .str (some t.MemberId)),
    ("GroupInstanceId", .str (some t.GroupInstanceId)),
    ("ErrorCode", .int16 t.ErrorCode)]

theorem MemberResponse13.conforms {v : Int16} (_hv : 0 ≤ v) (t : MemberResponse13) :
    Protocol.MemberResponse.wire false v (MemberResponse13.val t) = MemberResponse13.wire v t :=
  Writes.eq <|
    Writes.since (Protocol.wire_string v t.MemberId) <|
    Writes.since (Protocol.wire_string v t.GroupInstanceId) <|
    Writes.since (Protocol.wire_int16 v t.ErrorCode) <|
    Writes.done

/-- There is nothing that may not be nil. -/
def MemberResponse13.Full (_v : Int16) (_t : MemberResponse13) : Prop := True

theorem MemberResponse13.valid {v : Int16} (_hv : 0 ≤ v) (t : MemberResponse13) (h : t.Fits v) (_hf : t.Full v) :
    Protocol.MemberResponse.Valid true v (MemberResponse13.val t) :=
  Valids.since (fun hc => valid_string (h.MemberId hc)) <|
    Valids.since (fun hc => valid_string (h.GroupInstanceId hc)) <|
    Valids.since (fun _ => trivial) <|
    trivial

/-- What `MemberResponse13` holds after reading the value `x` into `t0`. -/
def MemberResponse13.of (v : Int16) (x : Val) (t0 : MemberResponse13) : MemberResponse13 :=
  { MemberId := if v ≥ 3 then (x.get "MemberId").toStr else t0.MemberId,
    GroupInstanceId := if v ≥ 3 then (x.get "GroupInstanceId").toStr else t0.GroupInstanceId,
    ErrorCode := if v ≥ 3 then (x.get "ErrorCode").toInt16 else t0.ErrorCode }

theorem MemberResponse13.decodes {v : Int16} (_hv : 0 ≤ v) (x : Val) (h : Protocol.MemberResponse.Valid false v x) (t0 : MemberResponse13) :
    Reads (MemberResponse13.decode v t0) (Protocol.MemberResponse.wire false v x) (MemberResponse13.of v x t0) :=
  Reads.congr (((Step.optField (c := v ≥ 3) (set := fun (t : MemberResponse13) x => { t with MemberId := x }) (·.MemberId) (fun _ => rfl) fun hc => read_string (Fields.Valid.head (h) hc))
      |>.andThen (Step.optField (c := v ≥ 3) (set := fun (t : MemberResponse13) x => { t with GroupInstanceId := x }) (·.GroupInstanceId) (fun _ => rfl) fun hc => read_string (Fields.Valid.head (Fields.Valid.tail h) hc))
      |>.andThen (Step.optField (c := v ≥ 3) (set := fun (t : MemberResponse13) x => { t with ErrorCode := x }) (·.ErrorCode) (fun _ => rfl) fun hc => read_int16 (Fields.Valid.head (Fields.Valid.tail (Fields.Valid.tail h)) hc)) : Step _ _ _) t0)
    (Writes.eq (fs := Protocol.MemberResponse) (v := v) (x := x) <| Writes.since rfl <| Writes.since rfl <| Writes.since rfl <| Writes.done).symm rfl

theorem MemberResponse13.parses {v : Int16} (_hv : 0 ≤ v) (t0 : MemberResponse13) :
    Parses (MemberResponse13.decode v t0) ((Ty.struct Protocol.MemberResponse).parse v) (fun x => MemberResponse13.of v x t0) :=
  FParses.parses (fs := Protocol.MemberResponse)
    (FParses.optField (c := v ≥ 3) Iff.rfl (set := fun (t : MemberResponse13) x => { t with MemberId := x }) (·.MemberId) (fun _ => rfl) par_string <|
    FParses.optField (c := v ≥ 3) Iff.rfl (set := fun (t : MemberResponse13) x => { t with GroupInstanceId := x }) (·.GroupInstanceId) (fun _ => rfl) par_string <|
    FParses.optField (c := v ≥ 3) Iff.rfl (set := fun (t : MemberResponse13) x => { t with ErrorCode := x }) (·.ErrorCode) (fun _ => rfl) par_int16 <|
    FParses.done)
    (by simp only [MemberResponse13.decode, Dec.andThen_assoc, Dec.andThen_nop]) (Fields.distinct_nodup _ (by decide +kernel)) (fun _ _ => rfl) t0

theorem MemberResponse13.shown {v : Int16} (_hv : 0 ≤ v) (x : Val) (h : Protocol.MemberResponse.Typed v x) :
    Protocol.MemberResponse.shows v x (MemberResponse13.val (MemberResponse13.of v x {})) = true :=
  Shows.since (fun s => .str (some s)) rfl (fun hc => show_string (Fields.Typed.head (h) hc)) rfl <|
    Shows.since (fun s => .str (some s)) rfl (fun hc => show_string (Fields.Typed.head (Fields.Typed.tail h) hc)) rfl <|
    Shows.since (.int16) rfl (fun hc => show_int16 (Fields.Typed.head (Fields.Typed.tail (Fields.Typed.tail h)) hc)) rfl <|
    rfl

/-- `LeaveGroupResponse` as a value of the protocol. -/
def LeaveGroupResponse.val (t : LeaveGroupResponse) : Val :=
  .struct [("ThrottleTimeMs", .int32 t.ThrottleTimeMs),
    ("ErrorCode", .int16 t.ErrorCode),
    ("Members", ofStructs MemberResponse13.val t.Members)]

theorem LeaveGroupResponse.conforms {v : Int16} (hv : 0 ≤ v) (t : LeaveGroupResponse) :
    Protocol.LeaveGroupResponse.wire false v (LeaveGroupResponse.val t) = LeaveGroupResponse.wire v t :=
  Writes.eq <|
    Writes.since (Protocol.wire_int32 v t.ThrottleTimeMs) <|
    Writes.all hv (Protocol.wire_int16 v t.ErrorCode) <|
    Writes.since (Protocol.wire_structs v (MemberResponse13.conforms hv) t.Members) <|
    Writes.done

/-- There is nothing that may not be nil. -/
def LeaveGroupResponse.Full (_v : Int16) (_t : LeaveGroupResponse) : Prop := True

theorem LeaveGroupResponse.valid {v : Int16} (hv : 0 ≤ v) (t : LeaveGroupResponse) (h : t.Fits v) (_hf : t.Full v) :
    Protocol.LeaveGroupResponse.Valid true v (LeaveGroupResponse.val t) :=
  Valids.since (fun _ => trivial) <|
    Valids.all trivial <|
    Valids.since (fun hc => valid_structs (fun y h hf => MemberResponse13.valid hv y h hf) (h.Members hc) (fun _ _ => trivial)) <|
    trivial

/-- What `LeaveGroupResponse` holds after reading the value `x` into `t0`. -/
def LeaveGroupResponse.of (v : Int16) (x : Val) (t0 : LeaveGroupResponse) : LeaveGroupResponse :=
  { ThrottleTimeMs := if v ≥ 1 then (x.get "ThrottleTimeMs").toInt32 else t0.ThrottleTimeMs,
    ErrorCode := (x.get "ErrorCode").toInt16,
    Members := if v ≥ 3 then (x.get "Members").toSliceOr (fun y => MemberResponse13.of v y {}) t0.Members else t0.Members }

theorem LeaveGroupResponse.decodes {v : Int16} (hv : 0 ≤ v) (x : Val) (h : Protocol.LeaveGroupResponse.Valid false v x) (t0 : LeaveGroupResponse) :
    Reads (LeaveGroupResponse.decode v t0) (Protocol.LeaveGroupResponse.wire false v x) (LeaveGroupResponse.of v x t0) :=
  Reads.congr (((Step.optField (c := v ≥ 1) (set := fun (t : LeaveGroupResponse) x => { t with ThrottleTimeMs := x }) (·.ThrottleTimeMs) (fun _ => rfl) fun hc => read_int32 (Fields.Valid.head (h) hc))
      |>.andThen (Step.field (set := fun (t : LeaveGroupResponse) x => { t with ErrorCode := x }) (read_int16 (Fields.Valid.head (Fields.Valid.tail h) hv)))
      |>.andThen (Step.readOptStructs (c := v ≥ 3) (get := fun (t : LeaveGroupResponse) => t.Members) (set := fun (t : LeaveGroupResponse) x => { t with Members := x }) (fun _ => rfl) (fun y hy => MemberResponse13.decodes hv y hy {}) fun hc => Fields.Valid.head (Fields.Valid.tail (Fields.Valid.tail h)) hc) : Step _ _ _) t0)
    (Writes.eq (fs := Protocol.LeaveGroupResponse) (v := v) (x := x) <| Writes.since rfl <| Writes.all hv rfl <| Writes.since rfl <| Writes.done).symm rfl

theorem LeaveGroupResponse.parses {v : Int16} (hv : 0 ≤ v) (t0 : LeaveGroupResponse) :
    Parses (LeaveGroupResponse.decode v t0) ((Ty.struct Protocol.LeaveGroupResponse).parse v) (fun x => LeaveGroupResponse.of v x t0) :=
  FParses.parses (fs := Protocol.LeaveGroupResponse)
    (FParses.optField (c := v ≥ 1) Iff.rfl (set := fun (t : LeaveGroupResponse) x => { t with ThrottleTimeMs := x }) (·.ThrottleTimeMs) (fun _ => rfl) par_int32 <|
    FParses.field hv (set := fun (t : LeaveGroupResponse) x => { t with ErrorCode := x }) par_int16 <|
    FParses.optStructs (c := v ≥ 3) Iff.rfl (get := fun (t : LeaveGroupResponse) => t.Members) (set := fun (t : LeaveGroupResponse) x => { t with Members := x }) (fun _ => rfl) (MemberResponse13.parses hv {}) <|
    FParses.done)
    (by simp only [LeaveGroupResponse.decode, Dec.andThen_assoc, Dec.andThen_nop]) (Fields.distinct_nodup _ (by decide +kernel)) (fun _ _ => rfl) t0

theorem LeaveGroupResponse.shown {v : Int16} (hv : 0 ≤ v) (x : Val) (h : Protocol.LeaveGroupResponse.Typed v x) :
    Protocol.LeaveGroupResponse.shows v x (LeaveGroupResponse.val (LeaveGroupResponse.of v x {})) = true :=
  Shows.since (.int32) rfl (fun hc => show_int32 (Fields.Typed.head (h) hc)) rfl <|
    Shows.all hv (show_int16 (Fields.Typed.head (Fields.Typed.tail h) hv)) <|
    Shows.since (ofStructs MemberResponse13.val) rfl (fun hc => show_structs (f := MemberResponse13.val) (g := fun y => MemberResponse13.of v y {}) (fun y hy => MemberResponse13.shown hv y hy) (Fields.Typed.head (Fields.Typed.tail (Fields.Typed.tail h)) hc)) rfl <|
    rfl

end Kafka.Msg
