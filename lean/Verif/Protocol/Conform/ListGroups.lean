import Verif.Protocol.ParseLemmas
import Verif.Gen.Spec.ListGroups
/-!
Generated by tools/gen_protocol.py: the ListGroups messages are written and read as the protocol says.
-/
namespace Kafka.Msg

open Protocol

/-- `ListGroupsRequest` as a value of the protocol. -/
def ListGroupsRequest.val (_t : ListGroupsRequest) : Val :=
  .struct []

theorem ListGroupsRequest.conforms {v : Int16} (_hv : 0 ≤ v) (t : ListGroupsRequest) :
    Protocol.ListGroupsRequest.wire false v (ListGroupsRequest.val t) = ListGroupsRequest.wire v t :=
  Writes.eq <|
    Writes.done

/-- There is nothing that may not be nil. -/
def ListGroupsRequest.Full (_v : Int16) (_t : ListGroupsRequest) : Prop := True

theorem ListGroupsRequest.valid {v : Int16} (_hv : 0 ≤ v) (t : ListGroupsRequest) (_h : t.Fits v) (_hf : t.Full v) :
    Protocol.ListGroupsRequest.Valid true v (ListGroupsRequest.val t) :=
  trivial

/-- `ListedGroup16` as a value of the protocol. -/
def ListedGroup16.val (t : ListedGroup16) : Val :=
  .struct [("GroupId", .str (some t.GroupId)),
    ("ProtocolType", .str (some t.ProtocolType))]

theorem ListedGroup16.conforms {v : Int16} (hv : 0 ≤ v) (t : ListedGroup16) :
    Protocol.ListedGroup.wire false v (ListedGroup16.val t) = ListedGroup16.wire v t :=
  Writes.eq <|
    Writes.all hv (Protocol.wire_string v t.GroupId) <|
    Writes.all hv (Protocol.wire_string v t.ProtocolType) <|
    Writes.done

/-- There is nothing that may not be nil. -/
def ListedGroup16.Full (_v : Int16) (_t : ListedGroup16) : Prop := True

theorem ListedGroup16.valid {v : Int16} (_hv : 0 ≤ v) (t : ListedGroup16) (h : t.Fits v) (_hf : t.Full v) :
    Protocol.ListedGroup.Valid true v (ListedGroup16.val t) :=
  Valids.all (valid_string (h.GroupId)) <|
    Valids.all (valid_string (h.ProtocolType)) <|
    trivial

/-- What `ListedGroup16` holds after reading the value `x` into `t0`. -/
def ListedGroup16.of (_v : Int16) (x : Val) (_t0 : ListedGroup16) : ListedGroup16 :=
  { GroupId := (x.get "GroupId").toStr,
    ProtocolType := (x.get "ProtocolType").toStr }

theorem ListedGroup16.decodes {v : Int16} (hv : 0 ≤ v) (x : Val) (h : Protocol.ListedGroup.Valid false v x) (t0 : ListedGroup16) :
    Reads (ListedGroup16.decode v t0) (Protocol.ListedGroup.wire false v x) (ListedGroup16.of v x t0) :=
  Reads.congr (((Step.field (set := fun (t : ListedGroup16) x => { t with GroupId := x }) (read_string (Fields.Valid.head (h) hv)))
      |>.andThen (Step.field (set := fun (t : ListedGroup16) x => { t with ProtocolType := x }) (read_string (Fields.Valid.head (Fields.Valid.tail h) hv))) : Step _ _ _) t0)
    (Writes.eq (fs := Protocol.ListedGroup) (v := v) (x := x) <| Writes.all hv rfl <| Writes.all hv rfl <| Writes.done).symm rfl

theorem ListedGroup16.parses {v : Int16} (hv : 0 ≤ v) (t0 : ListedGroup16) :
    Parses (ListedGroup16.decode v t0) ((Ty.struct Protocol.ListedGroup).parse v) (fun x => ListedGroup16.of v x t0) :=
  FParses.parses (fs := Protocol.ListedGroup)
    (FParses.field hv (set := fun (t : ListedGroup16) x => { t with GroupId := x }) par_string <|
    FParses.field hv (set := fun (t : ListedGroup16) x => { t with ProtocolType := x }) par_string <|
    FParses.done)
    (by simp only [ListedGroup16.decode, Dec.andThen_nop]) (Fields.distinct_nodup _ (by decide +kernel)) (fun _ _ => rfl) t0

theorem ListedGroup16.shown {v : Int16} (hv : 0 ≤ v) (x : Val) (h : Protocol.ListedGroup.Typed v x) :
    Protocol.ListedGroup.shows v x (ListedGroup16.val (ListedGroup16.of v x {})) = true :=
  Shows.all hv (show_string (Fields.Typed.head (h) hv)) <|
    Shows.all hv (show_string (Fields.Typed.head (Fields.Typed.tail h) hv)) <|
    rfl

/-- `ListGroupsResponse` as a value of the protocol. -/
def ListGroupsResponse.val (t : ListGroupsResponse) : Val :=
  .struct [("ThrottleTimeMs", .int32 t.ThrottleTimeMs),
    ("ErrorCode", .int16 t.ErrorCode),
    ("Groups", ofStructs ListedGroup16.val t.Groups)]

theorem ListGroupsResponse.conforms {v : Int16} (hv : 0 ≤ v) (t : ListGroupsResponse) :
    Protocol.ListGroupsResponse.wire false v (ListGroupsResponse.val t) = ListGroupsResponse.wire v t :=
  Writes.eq <|
    Writes.since (Protocol.wire_int32 v t.ThrottleTimeMs) <|
    Writes.all hv (Protocol.wire_int16 v t.ErrorCode) <|
    Writes.all hv (Protocol.wire_structs v (ListedGroup16.conforms hv) t.Groups) <|
    Writes.done

/-- There is nothing that may not be nil. -/
def ListGroupsResponse.Full (_v : Int16) (_t : ListGroupsResponse) : Prop := True

theorem ListGroupsResponse.valid {v : Int16} (hv : 0 ≤ v) (t : ListGroupsResponse) (h : t.Fits v) (_hf : t.Full v) :
    Protocol.ListGroupsResponse.Valid true v (ListGroupsResponse.val t) :=
  Valids.since (fun _ => trivial) <|
    Valids.all trivial <|
    Valids.all (valid_structs (fun y h hf => ListedGroup16.valid hv y h hf) (h.Groups) (fun _ _ => trivial)) <|
    trivial

/-- What `ListGroupsResponse` holds after reading the value `x` into `t0`. -/
def ListGroupsResponse.of (v : Int16) (x : Val) (t0 : ListGroupsResponse) : ListGroupsResponse :=
  { ThrottleTimeMs := if v ≥ 1 then (x.get "ThrottleTimeMs").toInt32 else t0.ThrottleTimeMs,
    ErrorCode := (x.get "ErrorCode").toInt16,
    Groups := (x.get "Groups").toSliceOr (fun y => ListedGroup16.of v y {}) t0.Groups }

theorem ListGroupsResponse.decodes {v : Int16} (hv : 0 ≤ v) (x : Val) (h : Protocol.ListGroupsResponse.Valid false v x) (t0 : ListGroupsResponse) :
    Reads (ListGroupsResponse.decode v t0) (Protocol.ListGroupsResponse.wire false v x) (ListGroupsResponse.of v x t0) :=
  Reads.congr (((Step.optField (c := v ≥ 1) (set := fun (t : ListGroupsResponse) x => { t with ThrottleTimeMs := x }) (·.ThrottleTimeMs) (fun _ => rfl) fun hc => read_int32 (Fields.Valid.head (h) hc))
      |>.andThen (Step.field (set := fun (t : ListGroupsResponse) x => { t with ErrorCode := x }) (read_int16 (Fields.Valid.head (Fields.Valid.tail h) hv)))
      |>.andThen (Step.readStructs (get := fun (t : ListGroupsResponse) => t.Groups) (set := fun (t : ListGroupsResponse) x => { t with Groups := x }) (fun y hy => ListedGroup16.decodes hv y hy {}) (Fields.Valid.head (Fields.Valid.tail (Fields.Valid.tail h)) hv)) : Step _ _ _) t0)
    (Writes.eq (fs := Protocol.ListGroupsResponse) (v := v) (x := x) <| Writes.since rfl <| Writes.all hv rfl <| Writes.all hv rfl <| Writes.done).symm rfl

theorem ListGroupsResponse.parses {v : Int16} (hv : 0 ≤ v) (t0 : ListGroupsResponse) :
    Parses (ListGroupsResponse.decode v t0) ((Ty.struct Protocol.ListGroupsResponse).parse v) (fun x => ListGroupsResponse.of v x t0) :=
  FParses.parses (fs := Protocol.ListGroupsResponse)
    (FParses.optField (c := v ≥ 1) Iff.rfl (set := fun (t : ListGroupsResponse) x => { t with ThrottleTimeMs := x }) (·.ThrottleTimeMs) (fun _ => rfl) par_int32 <|
    FParses.field hv (set := fun (t : ListGroupsResponse) x => { t with ErrorCode := x }) par_int16 <|
    FParses.structs hv (get := fun (t : ListGroupsResponse) => t.Groups) (set := fun (t : ListGroupsResponse) x => { t with Groups := x }) (ListedGroup16.parses hv {}) <|
    FParses.done)
    (by simp only [ListGroupsResponse.decode, Dec.andThen_assoc, Dec.andThen_nop]) (Fields.distinct_nodup _ (by decide +kernel)) (fun _ _ => rfl) t0

theorem ListGroupsResponse.shown {v : Int16} (hv : 0 ≤ v) (x : Val) (h : Protocol.ListGroupsResponse.Typed v x) :
    Protocol.ListGroupsResponse.shows v x (ListGroupsResponse.val (ListGroupsResponse.of v x {})) = true :=
  Shows.since (.int32) rfl (fun hc => show_int32 (Fields.Typed.head (h) hc)) rfl <|
    Shows.all hv (show_int16 (Fields.Typed.head (Fields.Typed.tail h) hv)) <|
    Shows.all hv (show_structs (f := ListedGroup16.val) (g := fun y => ListedGroup16.of v y {}) (fun y hy => ListedGroup16.shown hv y hy) (Fields.Typed.head (Fields.Typed.tail (Fields.Typed.tail h)) hv)) <|
    rfl

end Kafka.Msg
