import Verif.Protocol.ParseLemmas
import Verif.Gen.Spec.JoinGroup
/-!
Generated by tools/gen_protocol.py: the JoinGroup messages are written and read as the protocol says.
-/
namespace Kafka.Msg

open Protocol

/-- `JoinGroupRequestProtocol11` as a value of the protocol. -/
def JoinGroupRequestProtocol11.val (t : JoinGroupRequestProtocol11) : Val :=
  .struct [("Name", .str (some t.Name)),
    ("Metadata", .bytes (some t.Metadata.elems))]

theorem JoinGroupRequestProtocol11.conforms {v : Int16} (hv : 0 ≤ v) (t : JoinGroupRequestProtocol11) :
    Protocol.JoinGroupRequestProtocol.wire false v (JoinGroupRequestProtocol11.val t) = JoinGroupRequestProtocol11.wire v t :=
  Writes.eq <|
    Writes.all hv (Protocol.wire_string v t.Name) <|
    Writes.all hv (Protocol.wire_bytes v t.Metadata) <|
    Writes.done

/-- There is nothing that may not be nil. -/
def JoinGroupRequestProtocol11.Full (_v : Int16) (_t : JoinGroupRequestProtocol11) : Prop := True

theorem JoinGroupRequestProtocol11.valid {v : Int16} (_hv : 0 ≤ v) (t : JoinGroupRequestProtocol11) (h : t.Fits v) (_hf : t.Full v) :
    Protocol.JoinGroupRequestProtocol.Valid true v (JoinGroupRequestProtocol11.val t) :=
  Valids.all (valid_string (h.Name)) <|
    Valids.all (valid_bytes (h.Metadata)) <|
    trivial

/-- `JoinGroupRequest` as a value of the protocol. -/
def JoinGroupRequest.val (t : JoinGroupRequest) : Val :=
  .struct [("GroupId", .str (some t.GroupId)),
    ("SessionTimeoutMs", .int32 t.SessionTimeoutMs),
    ("RebalanceTimeoutMs", .int32 t.RebalanceTimeoutMs),
    ("MemberId", .str (some t.MemberId)),
    ("GroupInstanceId", .str (some t.GroupInstanceId)),
    ("ProtocolType", .str (some t.ProtocolType)),
    ("Protocols", ofStructs JoinGroupRequestProtocol11.val t.Protocols)]

theorem JoinGroupRequest.conforms {v : Int16} (hv : 0 ≤ v) (t : JoinGroupRequest) :
    Protocol.JoinGroupRequest.wire false v (JoinGroupRequest.val t) = JoinGroupRequest.wire v t :=
  Writes.eq <|
    Writes.all hv (Protocol.wire_string v t.GroupId) <|
    Writes.all hv (Protocol.wire_int32 v t.SessionTimeoutMs) <|
    Writes.since (Protocol.wire_int32 v t.RebalanceTimeoutMs) <|
    Writes.all hv (Protocol.wire_string v t.MemberId) <|
    Writes.since (Protocol.wire_string v t.GroupInstanceId) <|
    Writes.all hv (Protocol.wire_string v t.ProtocolType) <|
    Writes.all hv (Protocol.wire_structs v (JoinGroupRequestProtocol11.conforms hv) t.Protocols) <|
    Writes.done

/-- There is nothing that may not be nil. -/
def JoinGroupRequest.Full (_v : Int16) (_t : JoinGroupRequest) : Prop := True

theorem JoinGroupRequest.valid {v : Int16} (hv : 0 ≤ v) (t : JoinGroupRequest) (h : t.Fits v) (_hf : t.Full v) :
    Protocol.JoinGroupRequest.Valid true v (JoinGroupRequest.val t) :=
  Valids.all (valid_string (h.GroupId)) <|
    Valids.all trivial <|
    Valids.since (fun _ => trivial) <|
    Valids.all (valid_string (h.MemberId)) <|
    Valids.since (fun hc => valid_string (h.GroupInstanceId hc)) <|
    Valids.all (valid_string (h.ProtocolType)) <|
    Valids.all (valid_structs (fun y h hf => JoinGroupRequestProtocol11.valid hv y h hf) (h.Protocols) (fun _ _ => trivial)) <|
    trivial

/-- `JoinGroupResponseMember11` as a value of the protocol. -/
def JoinGroupResponseMember11.val (t : JoinGroupResponseMember11) : Val :=
  .struct [("MemberId", .str (some t.MemberId)),
    ("GroupInstanceId", .str (some t.GroupInstanceId)),
    ("Metadata", .bytes (some t.Metadata.elems))]

theorem JoinGroupResponseMember11.conforms {v : Int16} (hv : 0 ≤ v) (t : JoinGroupResponseMember11) :
    Protocol.JoinGroupResponseMember.wire false v (JoinGroupResponseMember11.val t) = JoinGroupResponseMember11.wire v t :=
  Writes.eq <|
    Writes.all hv (Protocol.wire_string v t.MemberId) <|
    Writes.since (Protocol.wire_string v t.GroupInstanceId) <|
    Writes.all hv (Protocol.wire_bytes v t.Metadata) <|
    Writes.done

/-- There is nothing that may not be nil. -/
def JoinGroupResponseMember11.Full (_v : Int16) (_t : JoinGroupResponseMember11) : Prop := True

theorem JoinGroupResponseMember11.valid {v : Int16} (_hv : 0 ≤ v) (t : JoinGroupResponseMember11) (h : t.Fits v) (_hf : t.Full v) :
    Protocol.JoinGroupResponseMember.Valid true v (JoinGroupResponseMember11.val t) :=
  Valids.all (valid_string (h.MemberId)) <|
    Valids.since (fun hc => valid_string (h.GroupInstanceId hc)) <|
    Valids.all (valid_bytes (h.Metadata)) <|
    trivial

/-- What `JoinGroupResponseMember11` holds after reading the value `x` into `t0`. -/
def JoinGroupResponseMember11.of (v : Int16) (x : Val) (t0 : JoinGroupResponseMember11) : JoinGroupResponseMember11 :=
  { MemberId := (x.get "MemberId").toStr,
    GroupInstanceId := if v ≥ 5 then (x.get "GroupInstanceId").toStr else t0.GroupInstanceId,
    Metadata := (x.get "Metadata").toBytes }

theorem JoinGroupResponseMember11.decodes {v : Int16} (hv : 0 ≤ v) (x : Val) (h : Protocol.JoinGroupResponseMember.Valid false v x) (t0 : JoinGroupResponseMember11) :
    Reads (JoinGroupResponseMember11.decode v t0) (Protocol.JoinGroupResponseMember.wire false v x) (JoinGroupResponseMember11.of v x t0) :=
  Reads.congr (((Step.field (set := fun (t : JoinGroupResponseMember11) x => { t with MemberId := x }) (read_string (Fields.Valid.head (h) hv)))
      |>.andThen (Step.optField (c := v ≥ 5) (set := fun (t : JoinGroupResponseMember11) x => { t with GroupInstanceId := x }) (·.GroupInstanceId) (fun _ => rfl) fun hc => read_string (Fields.Valid.head (Fields.Valid.tail h) hc))
      |>.andThen (Step.field (set := fun (t : JoinGroupResponseMember11) x => { t with Metadata := x }) (read_bytes (Fields.Valid.head (Fields.Valid.tail (Fields.Valid.tail h)) hv))) : Step _ _ _) t0)
    (Writes.eq (fs := Protocol.JoinGroupResponseMember) (v := v) (x := x) <| Writes.all hv rfl <| Writes.since rfl <| Writes.all hv rfl <| Writes.done).symm rfl

theorem JoinGroupResponseMember11.parses {v : Int16} (hv : 0 ≤ v) (t0 : JoinGroupResponseMember11) :
    Parses (JoinGroupResponseMember11.decode v t0) ((Ty.struct Protocol.JoinGroupResponseMember).parse v) (fun x => JoinGroupResponseMember11.of v x t0) :=
  FParses.parses (fs := Protocol.JoinGroupResponseMember)
    (FParses.field hv (set := fun (t : JoinGroupResponseMember11) x => { t with MemberId := x }) par_string <|
    FParses.optField (c := v ≥ 5) Iff.rfl (set := fun (t : JoinGroupResponseMember11) x => { t with GroupInstanceId := x }) (·.GroupInstanceId) (fun _ => rfl) par_string <|
    FParses.field hv (set := fun (t : JoinGroupResponseMember11) x => { t with Metadata := x }) par_bytes <|
    FParses.done)
    (by simp only [JoinGroupResponseMember11.decode, Dec.andThen_assoc, Dec.andThen_nop]) (Fields.distinct_nodup _ (by decide +kernel)) (fun _ _ => rfl) t0

theorem JoinGroupResponseMember11.shown {v : Int16} (hv : 0 ≤ v) (x : Val) (h : Protocol.JoinGroupResponseMember.Typed v x) :
    Protocol.JoinGroupResponseMember.shows v x (JoinGroupResponseMember11.val (JoinGroupResponseMember11.of v x {})) = true :=
  Shows.all hv (show_string (Fields.Typed.head (h) hv)) <|
    Shows.since (fun s => .str (some s)) rfl (fun hc => show_string (Fields.Typed.head (Fields.Typed.tail h) hc)) rfl <|
    Shows.all hv (show_bytes (Fields.Typed.head (Fields.Typed.tail (Fields.Typed.tail h)) hv)) <|
    rfl

/-- `JoinGroupResponse` as a value of the protocol. -/
def JoinGroupResponse.val (t : JoinGroupResponse) : Val :=
  .struct [("ThrottleTimeMs", .int32 t.ThrottleTimeMs),
    ("ErrorCode", .int16 t.ErrorCode),
    ("GenerationId", .int32 t.GenerationId),
    ("ProtocolName", .str (some t.ProtocolName)),
    ("Leader", .str (some t.Leader)),
    ("MemberId", .str (some t.MemberId)),
    ("Members", ofStructs JoinGroupResponseMember11.val t.Members)]

theorem JoinGroupResponse.conforms {v : Int16} (hv : 0 ≤ v) (t : JoinGroupResponse) :
    Protocol.JoinGroupResponse.wire false v (JoinGroupResponse.val t) = JoinGroupResponse.wire v t :=
  Writes.eq <|
    Writes.since (Protocol.wire_int32 v t.ThrottleTimeMs) <|
    Writes.all hv (Protocol.wire_int16 v t.ErrorCode) <|
    Writes.all hv (Protocol.wire_int32 v t.GenerationId) <|
    Writes.all hv (Protocol.wire_string v t.ProtocolName) <|
    Writes.all hv (Protocol.wire_string v t.Leader) <|
    Writes.all hv (Protocol.wire_string v t.MemberId) <|
    Writes.all hv (Protocol.wire_structs v (JoinGroupResponseMember11.conforms hv) t.Members) <|
    Writes.done

/-- There is nothing that may not be nil. -/
def JoinGroupResponse.Full (_v : Int16) (_t : JoinGroupResponse) : Prop := True

theorem JoinGroupResponse.valid {v : Int16} (hv : 0 ≤ v) (t : JoinGroupResponse) (h : t.Fits v) (_hf : t.Full v) :
    Protocol.JoinGroupResponse.Valid true v (JoinGroupResponse.val t) :=
  Valids.since (fun _ => trivial) <|
    Valids.all trivial <|
    Valids.all trivial <|
    Valids.all (valid_string (h.ProtocolName)) <|
    Valids.all (valid_string (h.Leader)) <|
    Valids.all (valid_string (h.MemberId)) <|
    Valids.all (valid_structs (fun y h hf => JoinGroupResponseMember11.valid hv y h hf) (h.Members) (fun _ _ => trivial)) <|
    trivial

/-- What `JoinGroupResponse` holds after reading the value `x` into `t0`. -/
def JoinGroupResponse.of (v : Int16) (x : Val) (t0 : JoinGroupResponse) : JoinGroupResponse :=
  { ThrottleTimeMs := if v ≥ 2 then (x.get "ThrottleTimeMs").toInt32 else t0.ThrottleTimeMs,
    ErrorCode := (x.get "ErrorCode").toInt16,
    GenerationId := (x.get "GenerationId").toInt32,
    ProtocolName := (x.get "ProtocolName").toStr,
    Leader := (x.get "Leader").toStr,
    MemberId := (x.get "MemberId").toStr,
    Members := (x.get "Members").toSliceOr (fun y => JoinGroupResponseMember11.of v y {}) t0.Members }

theorem JoinGroupResponse.decodes {v : Int16} (hv : 0 ≤ v) (x : Val) (h : Protocol.JoinGroupResponse.Valid false v x) (t0 : JoinGroupResponse) :
    Reads (JoinGroupResponse.decode v t0) (Protocol.JoinGroupResponse.wire false v x) (JoinGroupResponse.of v x t0) :=
  Reads.congr (((Step.optField (c := v ≥ 2) (set := fun (t : JoinGroupResponse) x => { t with ThrottleTimeMs := x }) (·.ThrottleTimeMs) (fun _ => rfl) fun hc => read_int32 (Fields.Valid.head (h) hc))
      |>.andThen (Step.field (set := fun (t : JoinGroupResponse) x => { t with ErrorCode := x }) (read_int16 (Fields.Valid.head (Fields.Valid.tail h) hv)))
      |>.andThen (Step.field (set := fun (t : JoinGroupResponse) x => { t with GenerationId := x }) (read_int32 (Fields.Valid.head (Fields.Valid.tail (Fields.Valid.tail h)) hv)))
      |>.andThen (Step.field (set := fun (t : JoinGroupResponse) x => { t with ProtocolName := x }) (read_string (Fields.Valid.head (Fields.Valid.tail (Fields.Valid.tail (Fields.Valid.tail h))) hv)))
      |>.andThen (Step.field (set := fun (t : JoinGroupResponse) x => { t with Leader := x }) (read_string (Fields.Valid.head (Fields.Valid.tail (Fields.Valid.tail (Fields.Valid.tail (Fields.Valid.tail h)))) hv)))
      |>.andThen (Step.field (set := fun (t : JoinGroupResponse) x => { t with MemberId := x }) (read_string (Fields.Valid.head (Fields.Valid.tail (Fields.Valid.tail (Fields.Valid.tail (Fields.Valid.tail (Fields.Valid.tail h))))) hv)))
      |>.andThen (Step.readStructs (get := fun (t : JoinGroupResponse) => t.Members) (set := fun (t : JoinGroupResponse) x => { t with Members := x }) (fun y hy => JoinGroupResponseMember11.decodes hv y hy {}) (Fields.Valid.head (Fields.Valid.tail (Fields.Valid.tail (Fields.Valid.tail (Fields.Valid.tail (Fields.Valid.tail (Fields.Valid.tail h)))))) hv)) : Step _ _ _) t0)
    (Writes.eq (fs := Protocol.JoinGroupResponse) (v := v) (x := x) <| Writes.since rfl <| Writes.all hv rfl <| Writes.all hv rfl <| Writes.all hv rfl <| Writes.all hv rfl <| Writes.all hv rfl <| Writes.all hv rfl <| Writes.done).symm rfl

theorem JoinGroupResponse.parses {v : Int16} (hv : 0 ≤ v) (t0 : JoinGroupResponse) :
    Parses (JoinGroupResponse.decode v t0) ((Ty.struct Protocol.JoinGroupResponse).parse v) (fun x => JoinGroupResponse.of v x t0) :=
  FParses.parses (fs := Protocol.JoinGroupResponse)
    (FParses.optField (c := v ≥ 2) Iff.rfl (set := fun (t : JoinGroupResponse) x => { t with ThrottleTimeMs := x }) (·.ThrottleTimeMs) (fun _ => rfl) par_int32 <|
    FParses.field hv (set := fun (t : JoinGroupResponse) x => { t with ErrorCode := x }) par_int16 <|
    FParses.field hv (set := fun (t : JoinGroupResponse) x => { t with GenerationId := x }) par_int32 <|
    FParses.field hv (set := fun (t : JoinGroupResponse) x => { t with ProtocolName := x }) par_string <|
    FParses.field hv (set := fun (t : JoinGroupResponse) x => { t with Leader := x }) par_string <|
    FParses.field hv (set := fun (t : JoinGroupResponse) x => { t with MemberId := x }) par_string <|
    FParses.structs hv (get := fun (t : JoinGroupResponse) => t.Members) (set := fun (t : JoinGroupResponse) x => { t with Members := x }) (JoinGroupResponseMember11.parses hv {}) <|
    FParses.done)
    (by simp only [JoinGroupResponse.decode, Dec.andThen_assoc, Dec.andThen_nop]) (Fields.distinct_nodup _ (by decide +kernel)) (fun _ _ => rfl) t0

theorem JoinGroupResponse.shown {v : Int16} (hv : 0 ≤ v) (x : Val) (h : Protocol.JoinGroupResponse.Typed v x) :
    Protocol.JoinGroupResponse.shows v x (JoinGroupResponse.val (JoinGroupResponse.of v x {})) = true :=
  Shows.since (.int32) rfl (fun hc => show_int32 (Fields.Typed.head (h) hc)) rfl <|
    Shows.all hv (show_int16 (Fields.Typed.head (Fields.Typed.tail h) hv)) <|
    Shows.all hv (show_int32 (Fields.Typed.head (Fields.Typed.tail (Fields.Typed.tail h)) hv)) <|
    Shows.all hv (show_string (Fields.Typed.head (Fields.Typed.tail (Fields.Typed.tail (Fields.Typed.tail h))) hv)) <|
    Shows.all hv (show_string (Fields.Typed.head (Fields.Typed.tail (Fields.Typed.tail (Fields.Typed.tail (Fields.Typed.tail h)))) hv)) <|
    Shows.all hv (show_string (Fields.Typed.head (Fields.Typed.tail (Fields.Typed.tail (Fields.Typed.tail (Fields.Typed.tail (Fields.Typed.tail h))))) hv)) <|
    Shows.all hv (show_structs (f := JoinGroupResponseMember11.val) (g := fun y => JoinGroupResponseMember11.of v y {}) (fun y hy => JoinGroupResponseMember11.shown hv y hy) (Fields.Typed.head (Fields.Typed.tail (Fields.Typed.tail (Fields.Typed.tail (Fields.Typed.tail (Fields.Typed.tail (Fields.Typed.tail h)))))) hv)) <|
    rfl

end Kafka.Msg
