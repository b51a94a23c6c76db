import Verif.Protocol.Conform.JoinGroup
/-!
Generated by tools/gen_protocol.py: the JoinGroup request is read as the protocol says.
-/
namespace Kafka.Msg

open Protocol

/-- What `JoinGroupRequestProtocol11` holds after reading the value `x` into `t0`. -/
def JoinGroupRequestProtocol11.of (_v : Int16) (x : Val) (_t0 : JoinGroupRequestProtocol11) : JoinGroupRequestProtocol11 :=
  { Name := (x.get "Name").toStr,
    Metadata := (x.get "Metadata").toBytes }

theorem JoinGroupRequestProtocol11.decodes {v : Int16} (hv : 0 ≤ v) (x : Val) (h : Protocol.JoinGroupRequestProtocol.Valid false v x) (t0 : JoinGroupRequestProtocol11) :
    Reads (JoinGroupRequestProtocol11.decode v t0) (Protocol.JoinGroupRequestProtocol.wire false v x) (JoinGroupRequestProtocol11.of v x t0) :=
  Reads.congr (((Step.field (set := fun (t : JoinGroupRequestProtocol11) x => { t with Name := x }) (read_string (Fields.Valid.head (h) hv)))
      |>.andThen (Step.field (set := fun (t : JoinGroupRequestProtocol11) x => { t with Metadata := x }) (read_bytes (Fields.Valid.head (Fields.Valid.tail h) hv))) : Step _ _ _) t0)
    (Writes.eq (fs := Protocol.JoinGroupRequestProtocol) (v := v) (x := x) <| Writes.all hv rfl <| Writes.all hv rfl <| Writes.done).symm rfl

theorem JoinGroupRequestProtocol11.parses {v : Int16} (hv : 0 ≤ v) (t0 : JoinGroupRequestProtocol11) :
    Parses (JoinGroupRequestProtocol11.decode v t0) ((Ty.struct Protocol.JoinGroupRequestProtocol).parse v) (fun x => JoinGroupRequestProtocol11.of v x t0) :=
  FParses.parses (fs := Protocol.JoinGroupRequestProtocol)
    (FParses.field hv (set := fun (t : JoinGroupRequestProtocol11) x => { t with Name := x }) par_string <|
    FParses.field hv (set := fun (t : JoinGroupRequestProtocol11) x => { t with Metadata := x }) par_bytes <|
    FParses.done)
    (by simp only [JoinGroupRequestProtocol11.decode, Dec.andThen_nop]) (Fields.distinct_nodup _ (by decide +kernel)) (fun _ _ => rfl) t0

theorem JoinGroupRequestProtocol11.shown {v : Int16} (hv : 0 ≤ v) (x : Val) (h : Protocol.JoinGroupRequestProtocol.Typed v x) :
    Protocol.JoinGroupRequestProtocol.shows v x (JoinGroupRequestProtocol11.val (JoinGroupRequestProtocol11.of v x {})) = true :=
  Shows.all hv (show_string (Fields.Typed.head (h) hv)) <|
    Shows.all hv (show_bytes (Fields.Typed.head (Fields.Typed.tail h) hv)) <|
    rfl

/-- What `JoinGroupRequest` holds after reading the value `x` into `t0`. -/
def JoinGroupRequest.of (v : Int16) (x : Val) (t0 : JoinGroupRequest) : JoinGroupRequest :=
  { GroupId := (x.get "GroupId").toStr,
    SessionTimeoutMs := (x.get "SessionTimeoutMs").toInt32,
    RebalanceTimeoutMs := if v ≥ 1 then (x.get "RebalanceTimeoutMs").toInt32 else t0.RebalanceTimeoutMs,
    MemberId := (x.get "MemberId").toStr,
    GroupInstanceId := if v ≥ 5 then (x.get "GroupInstanceId").toStr else t0.GroupInstanceId,
    ProtocolType := (x.get "ProtocolType").toStr,
    Protocols := (x.get "Protocols").toSliceOr (fun y => JoinGroupRequestProtocol11.of v y {}) t0.Protocols }

theorem JoinGroupRequest.decodes {v : Int16} (hv : 0 ≤ v) (x : Val) (h : Protocol.JoinGroupRequest.Valid false v x) (t0 : JoinGroupRequest) :
    Reads (JoinGroupRequest.decode v t0) (Protocol.JoinGroupRequest.wire false v x) (JoinGroupRequest.of v x t0) :=
  Reads.congr (((Step.field (set := fun (t : JoinGroupRequest) x => { t with GroupId := x }) (read_string (Fields.Valid.head (h) hv)))
      |>.andThen (Step.field (set := fun (t : JoinGroupRequest) x => { t with SessionTimeoutMs := x }) (read_int32 (Fields.Valid.head (Fields.Valid.tail h) hv)))
      |>.andThen (Step.optField (c := v ≥ 1) (set := fun (t : JoinGroupRequest) x => { t with RebalanceTimeoutMs := x }) (·.RebalanceTimeoutMs) (fun _ => rfl) fun hc => read_int32 (Fields.Valid.head (Fields.Valid.tail (Fields.Valid.tail h)) hc))
      |>.andThen (Step.field (set := fun (t : JoinGroupRequest) x => { t with MemberId := x }) (read_string (Fields.Valid.head (Fields.Valid.tail (Fields.Valid.tail (Fields.Valid.tail h))) hv)))
      |>.andThen (Step.optField (c := v ≥ 5) (set := fun (t : JoinGroupRequest) x => { t with GroupInstanceId := x }) (·.GroupInstanceId) (fun _ => rfl) fun hc => read_string (Fields.Valid.head (Fields.Valid.tail (Fields.Valid.tail (Fields.Valid.tail (Fields.Valid.tail h)))) hc))
      |>.andThen (Step.field (set := fun (t : JoinGroupRequest) x => { t with ProtocolType := x }) (read_string (Fields.Valid.head (Fields.Valid.tail (Fields.Valid.tail (Fields.Valid.tail (Fields.Valid.tail (Fields.Valid.tail h))))) hv)))
      |>.andThen (Step.readStructs (get := fun (t : JoinGroupRequest) => t.Protocols) (set := fun (t : JoinGroupRequest) x => { t with Protocols := x }) (fun y hy => JoinGroupRequestProtocol11.decodes hv y hy {}) (Fields.Valid.head (Fields.Valid.tail (Fields.Valid.tail (Fields.Valid.tail (Fields.Valid.tail (Fields.Valid.tail (Fields.Valid.tail h)))))) hv)) : Step _ _ _) t0)
    (Writes.eq (fs := Protocol.JoinGroupRequest) (v := v) (x := x) <| Writes.all hv rfl <| Writes.all hv rfl <| Writes.since rfl <| Writes.all hv rfl <| Writes.since rfl <| Writes.all hv rfl <| Writes.all hv rfl <| Writes.done).symm rfl

theorem JoinGroupRequest.parses {v : Int16} (hv : 0 ≤ v) (t0 : JoinGroupRequest) :
    Parses (JoinGroupRequest.decode v t0) ((Ty.struct Protocol.JoinGroupRequest).parse v) (fun x => JoinGroupRequest.of v x t0) :=
  FParses.parses (fs := Protocol.JoinGroupRequest)
    (FParses.field hv (set := fun (t : JoinGroupRequest) x => { t with GroupId := x }) par_string <|
    FParses.field hv (set := fun (t : JoinGroupRequest) x => { t with SessionTimeoutMs := x }) par_int32 <|
    FParses.optField (c := v ≥ 1) Iff.rfl (set := fun (t : JoinGroupRequest) x => { t with RebalanceTimeoutMs := x }) (·.RebalanceTimeoutMs) (fun _ => rfl) par_int32 <|
    FParses.field hv (set := fun (t : JoinGroupRequest) x => { t with MemberId := x }) par_string <|
    FParses.optField (c := v ≥ 5) Iff.rfl (set := fun (t : JoinGroupRequest) x => { t with GroupInstanceId := x }) (·.GroupInstanceId) (fun _ => rfl) par_string <|
    FParses.field hv (set := fun (t : JoinGroupRequest) x => { t with ProtocolType := x }) par_string <|
    FParses.structs hv (get := fun (t : JoinGroupRequest) => t.Protocols) (set := fun (t : JoinGroupRequest) x => { t with Protocols := x }) (JoinGroupRequestProtocol11.parses hv {}) <|
    FParses.done)
    (by simp only [JoinGroupRequest.decode, Dec.andThen_assoc, Dec.andThen_nop]) (Fields.distinct_nodup _ (by decide +kernel)) (fun _ _ => rfl) t0

theorem JoinGroupRequest.shown {v : Int16} (hv : 0 ≤ v) (x : Val) (h : Protocol.JoinGroupRequest.Typed v x) :
    Protocol.JoinGroupRequest.shows v x (JoinGroupRequest.val (JoinGroupRequest.of v x {})) = true :=
  Shows.all hv (show_string (Fields.Typed.head (h) hv)) <|
    Shows.all hv (show_int32 (Fields.Typed.head (Fields.Typed.tail h) hv)) <|
    Shows.since (.int32) rfl (fun hc => show_int32 (Fields.Typed.head (Fields.Typed.tail (Fields.Typed.tail h)) hc)) rfl <|
    Shows.all hv (show_string (Fields.Typed.head (Fields.Typed.tail (Fields.Typed.tail (Fields.Typed.tail h))) hv)) <|
    Shows.since (fun s => .str (some s)) rfl (fun hc => show_string (Fields.Typed.head (Fields.Typed.tail (Fields.Typed.tail (Fields.Typed.tail (Fields.Typed.tail h)))) hc)) rfl <|
    Shows.all hv (show_string (Fields.Typed.head (Fields.Typed.tail (Fields.Typed.tail (Fields.Typed.tail (Fields.Typed.tail (Fields.Typed.tail h))))) hv)) <|
    Shows.all hv (show_structs (f := JoinGroupRequestProtocol11.val) (g := fun y => JoinGroupRequestProtocol11.of v y {}) (fun y hy => JoinGroupRequestProtocol11.shown hv y hy) (Fields.Typed.head (Fields.Typed.tail (Fields.Typed.tail (Fields.Typed.tail (Fields.Typed.tail (Fields.Typed.tail (Fields.Typed.tail h)))))) hv)) <|
    rfl

end Kafka.Msg
