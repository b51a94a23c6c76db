import Verif.Protocol.ParseLemmas
import Verif.Gen.Spec.DescribeGroups
/-!
Generated by tools/gen_protocol.py: the DescribeGroups messages are written and read as the protocol says.
-/
namespace Kafka.Msg

open Protocol

/-- `DescribeGroupsRequest` as a value of the protocol. -/
def DescribeGroupsRequest.val (t : DescribeGroupsRequest) : Val :=
  .struct [("Groups", ofScalars (fun s => .str (some s)) t.Groups),
    ("IncludeAuthorizedOperations", .bool t.IncludeAuthorizedOperations)]

theorem DescribeGroupsRequest.conforms {v : Int16} (hv : 0 ≤ v) (t : DescribeGroupsRequest) :
    Protocol.DescribeGroupsRequest.wire false v (DescribeGroupsRequest.val t) = DescribeGroupsRequest.wire v t :=
  Writes.eq <|
    Writes.all hv (Protocol.wire_stringArray v t.Groups) <|
    Writes.since (Protocol.wire_bool v t.IncludeAuthorizedOperations) <|
    Writes.done

/-- No slice of scalars is nil where the protocol has no null. -/
structure DescribeGroupsRequest.Full (v : Int16) (t : DescribeGroupsRequest) : Prop where
  Groups : t.Groups.NotNil

theorem DescribeGroupsRequest.valid {v : Int16} (_hv : 0 ≤ v) (t : DescribeGroupsRequest) (h : t.Fits v) (hf : t.Full v) :
    Protocol.DescribeGroupsRequest.Valid true v (DescribeGroupsRequest.val t) :=
  Valids.all (valid_stringArray (h.Groups) (.inr (hf.Groups))) <|
    Valids.since (fun _ => trivial) <|
    trivial

/-- `DescribedGroupMember15` as a value of the protocol. -/
def DescribedGroupMember15.val (t : DescribedGroupMember15) : Val :=
  .struct [("MemberId", .str (some t.MemberId)),
    ("GroupInstanceId", .str (some t.GroupInstanceId)),
    ("ClientId", .str (some t.ClientId)),
    ("ClientHost", .str (some t.ClientHost)),
    ("MemberMetadata", .bytes (some t.MemberMetadata.elems)),
    ("MemberAssignment", .bytes (some t.MemberAssignment.elems))]

theorem DescribedGroupMember15.conforms {v : Int16} (hv : 0 ≤ v) (t : DescribedGroupMember15) :
    Protocol.DescribedGroupMember.wire false v (DescribedGroupMember15.val t) = DescribedGroupMember15.wire v t :=
  Writes.eq <|
    Writes.all hv (Protocol.wire_string v t.MemberId) <|
    Writes.since (Protocol.wire_string v t.GroupInstanceId) <|
    Writes.all hv (Protocol.wire_string v t.ClientId) <|
    Writes.all hv (Protocol.wire_string v t.ClientHost) <|
    Writes.all hv (Protocol.wire_bytes v t.MemberMetadata) <|
    Writes.all hv (Protocol.wire_bytes v t.MemberAssignment) <|
    Writes.done

/-- There is nothing that may not be nil. -/
def DescribedGroupMember15.Full (_v : Int16) (_t : DescribedGroupMember15) : Prop := True

theorem DescribedGroupMember15.valid {v : Int16} (_hv : 0 ≤ v) (t : DescribedGroupMember15) (h : t.Fits v) (_hf : t.Full v) :
    Protocol.DescribedGroupMember.Valid true v (DescribedGroupMember15.val t) :=
  Valids.all (valid_string (h.MemberId)) <|
    Valids.since (fun hc => valid_string (h.GroupInstanceId hc)) <|
    Valids.all (valid_string (h.ClientId)) <|
    Valids.all (valid_string (h.ClientHost)) <|
    Valids.all (valid_bytes (h.MemberMetadata)) <|
    Valids.all (valid_bytes (h.MemberAssignment)) <|
    trivial

/-- What `DescribedGroupMember15` holds after reading the value `x` into `t0`. -/
def DescribedGroupMember15.of (v : Int16) (x : Val) (t0 : DescribedGroupMember15) : DescribedGroupMember15 :=
  { MemberId := (x.get "MemberId").toStr,
    GroupInstanceId := if v ≥ 4 then (x.get "GroupInstanceId").toStr else t0.GroupInstanceId,
    ClientId := (x.get "ClientId").toStr,
    ClientHost := (x.get "ClientHost").toStr,
    MemberMetadata := (x.get "MemberMetadata").toBytes,
    MemberAssignment := (x.get "MemberAssignment").toBytes }

theorem DescribedGroupMember15.decodes {v : Int16} (hv : 0 ≤ v) (x : Val) (h : Protocol.DescribedGroupMember.Valid false v x) (t0 : DescribedGroupMember15) :
    Reads (DescribedGroupMember15.decode v t0) (Protocol.DescribedGroupMember.wire false v x) (DescribedGroupMember15.of v x t0) :=
  Reads.congr (((Step.field (set := fun (t : DescribedGroupMember15) x => { t with MemberId := x }) (read_string (Fields.Valid.head (h) hv)))
      |>.andThen (Step.optField (c := v ≥ 4) (set := fun (t : DescribedGroupMember15) x => { t with GroupInstanceId := x }) (·.GroupInstanceId) (fun _ => rfl) fun hc => read_string (Fields.Valid.head (Fields.Valid.tail h) hc))
      |>.andThen (Step.field (set := fun (t : DescribedGroupMember15) x => { t with ClientId := x }) (read_string (Fields.Valid.head (Fields.Valid.tail (Fields.Valid.tail h)) hv)))
      |>.andThen (Step.field (set := fun (t : DescribedGroupMember15) x => { t with ClientHost := x }) (read_string (Fields.Valid.head (Fields.Valid.tail (Fields.Valid.tail (Fields.Valid.tail h))) hv)))
      |>.andThen (Step.field (set := fun (t : DescribedGroupMember15) x => { t with MemberMetadata := x }) (read_bytes (Fields.Valid.head (Fields.Valid.tail (Fields.Valid.tail (Fields.Valid.tail (Fields.Valid.tail h)))) hv)))
      |>.andThen (Step.field (set := fun (t : DescribedGroupMember15) x => { t with MemberAssignment := x }) (read_bytes (Fields.Valid.head (Fields.Valid.tail (Fields.Valid.tail (Fields.Valid.tail (Fields.Valid.tail (Fields.Valid.tail h))))) hv))) : Step _ _ _) t0)
    (Writes.eq (fs := Protocol.DescribedGroupMember) (v := v) (x := x) <| Writes.all hv rfl <| Writes.since rfl <| Writes.all hv rfl <| Writes.all hv rfl <| Writes.all hv rfl <| Writes.all hv rfl <| Writes.done).symm rfl

theorem DescribedGroupMember15.parses {v : Int16} (hv : 0 ≤ v) (t0 : DescribedGroupMember15) :
    Parses (DescribedGroupMember15.decode v t0) ((Ty.struct Protocol.DescribedGroupMember).parse v) (fun x => DescribedGroupMember15.of v x t0) :=
  FParses.parses (fs := Protocol.DescribedGroupMember)
    (FParses.field hv (set := fun (t : DescribedGroupMember15) x => { t with MemberId := x }) par_string <|
    FParses.optField (c := v ≥ 4) Iff.rfl (set := fun (t : DescribedGroupMember15) x => { t with GroupInstanceId := x }) (·.GroupInstanceId) (fun _ => rfl) par_string <|
    FParses.field hv (set := fun (t : DescribedGroupMember15) x => { t with ClientId := x }) par_string <|
    FParses.field hv (set := fun (t : DescribedGroupMember15) x => { t with ClientHost := x }) par_string <|
    FParses.field hv (set := fun (t : DescribedGroupMember15) x => { t with MemberMetadata := x }) par_bytes <|
    FParses.field hv (set := fun (t : DescribedGroupMember15) x => { t with MemberAssignment := x }) par_bytes <|
    FParses.done)
    (by simp only [DescribedGroupMember15.decode, Dec.andThen_assoc, Dec.andThen_nop]) (Fields.distinct_nodup _ (by decide +kernel)) (fun _ _ => rfl) t0

theorem DescribedGroupMember15.shown {v : Int16} (hv : 0 ≤ v) (x : Val) (h : Protocol.DescribedGroupMember.Typed v x) :
    Protocol.DescribedGroupMember.shows v x (DescribedGroupMember15.val (DescribedGroupMember15.of v x {})) = true :=
  Shows.all hv (show_string (Fields.Typed.head (h) hv)) <|
    Shows.since (fun s => .str (some s)) rfl (fun hc => show_string (Fields.Typed.head (Fields.Typed.tail h) hc)) rfl <|
    Shows.all hv (show_string (Fields.Typed.head (Fields.Typed.tail (Fields.Typed.tail h)) hv)) <|
    Shows.all hv (show_string (Fields.Typed.head (Fields.Typed.tail (Fields.Typed.tail (Fields.Typed.tail h))) hv)) <|
    Shows.all hv (show_bytes (Fields.Typed.head (Fields.Typed.tail (Fields.Typed.tail (Fields.Typed.tail (Fields.Typed.tail h)))) hv)) <|
    Shows.all hv (show_bytes (Fields.Typed.head (Fields.Typed.tail (Fields.Typed.tail (Fields.Typed.tail (Fields.Typed.tail (Fields.Typed.tail h))))) hv)) <|
    rfl

/-- `DescribedGroup15` as a value of the protocol. -/
def DescribedGroup15.val (t : DescribedGroup15) : Val :=
  .struct [("ErrorCode", .int16 t.ErrorCode),
    ("GroupId", .str (some t.GroupId)),
    ("GroupState", .str (some t.GroupState)),
    ("ProtocolType", .str (some t.ProtocolType)),
    ("ProtocolData", .str (some t.ProtocolData)),
    ("Members", ofStructs DescribedGroupMember15.val t.Members),
    ("AuthorizedOperations", .int32 t.AuthorizedOperations)]

theorem DescribedGroup15.conforms {v : Int16} (hv : 0 ≤ v) (t : DescribedGroup15) :
    Protocol.DescribedGroup.wire false v (DescribedGroup15.val t) = DescribedGroup15.wire v t :=
  Writes.eq <|
    Writes.all hv (Protocol.wire_int16 v t.ErrorCode) <|
    Writes.all hv (Protocol.wire_string v t.GroupId) <|
    Writes.all hv (Protocol.wire_string v t.GroupState) <|
    Writes.all hv (Protocol.wire_string v t.ProtocolType) <|
    Writes.all hv (Protocol.wire_string v t.ProtocolData) <|
    Writes.all hv (Protocol.wire_structs v (DescribedGroupMember15.conforms hv) t.Members) <|
    Writes.since (Protocol.wire_int32 v t.AuthorizedOperations) <|
    Writes.done

/-- There is nothing that may not be nil. -/
def DescribedGroup15.Full (_v : Int16) (_t : DescribedGroup15) : Prop := True

theorem DescribedGroup15.valid {v : Int16} (hv : 0 ≤ v) (t : DescribedGroup15) (h : t.Fits v) (_hf : t.Full v) :
    Protocol.DescribedGroup.Valid true v (DescribedGroup15.val t) :=
  Valids.all trivial <|
    Valids.all (valid_string (h.GroupId)) <|
    Valids.all (valid_string (h.GroupState)) <|
    Valids.all (valid_string (h.ProtocolType)) <|
    Valids.all (valid_string (h.ProtocolData)) <|
    Valids.all (valid_structs (fun y h hf => DescribedGroupMember15.valid hv y h hf) (h.Members) (fun _ _ => trivial)) <|
    Valids.since (fun _ => trivial) <|
    trivial

/-- What `DescribedGroup15` holds after reading the value `x` into `t0`. -/
def DescribedGroup15.of (v : Int16) (x : Val) (t0 : DescribedGroup15) : DescribedGroup15 :=
  { ErrorCode := (x.get "ErrorCode").toInt16,
    GroupId := (x.get "GroupId").toStr,
    GroupState := (x.get "GroupState").toStr,
    ProtocolType := (x.get "ProtocolType").toStr,
    ProtocolData := (x.get "ProtocolData").toStr,
    Members := (x.get "Members").toSliceOr (fun y => DescribedGroupMember15.of v y {}) t0.Members,
    AuthorizedOperations := if v ≥ 3 then (x.get "AuthorizedOperations").toInt32 else t0.AuthorizedOperations }

theorem DescribedGroup15.decodes {v : Int16} (hv : 0 ≤ v) (x : Val) (h : Protocol.DescribedGroup.Valid false v x) (t0 : DescribedGroup15) :
    Reads (DescribedGroup15.decode v t0) (Protocol.DescribedGroup.wire false v x) (DescribedGroup15.of v x t0) :=
  Reads.congr (((Step.field (set := fun (t : DescribedGroup15) x => { t with ErrorCode := x }) (read_int16 (Fields.Valid.head (h) hv)))
      |>.andThen (Step.field (set := fun (t : DescribedGroup15) x => { t with GroupId := x }) (read_string (Fields.Valid.head (Fields.Valid.tail h) hv)))
      |>.andThen (Step.field (set := fun (t : DescribedGroup15) x => { t with GroupState := x }) (read_string (Fields.Valid.head (Fields.Valid.tail (Fields.Valid.tail h)) hv)))
      |>.andThen (Step.field (set := fun (t : DescribedGroup15) x => { t with ProtocolType := x }) (read_string (Fields.Valid.head (Fields.Valid.tail (Fields.Valid.tail (Fields.Valid.tail h))) hv)))
      |>.andThen (Step.field (set := fun (t : DescribedGroup15) x => { t with ProtocolData := x }) (read_string (Fields.Valid.head (Fields.Valid.tail (Fields.Valid.tail (Fields.Valid.tail (Fields.Valid.tail h)))) hv)))
      |>.andThen (Step.readStructs (get := fun (t : DescribedGroup15) => t.Members) (set := fun (t : DescribedGroup15) x => { t with Members := x }) (fun y hy => DescribedGroupMember15.decodes hv y hy {}) (Fields.Valid.head (Fields.Valid.tail (Fields.Valid.tail (Fields.Valid.tail (Fields.Valid.tail (Fields.Valid.tail h))))) hv))
      |>.andThen (Step.optField (c := v ≥ 3) (set := fun (t : DescribedGroup15) x => { t with AuthorizedOperations := x }) (·.AuthorizedOperations) (fun _ => rfl) fun hc => read_int32 (Fields.Valid.head (Fields.Valid.tail (Fields.Valid.tail (Fields.Valid.tail (Fields.Valid.tail (Fields.Valid.tail (Fields.Valid.tail h)))))) hc)) : Step _ _ _) t0)
    (Writes.eq (fs := Protocol.DescribedGroup) (v := v) (x := x) <| Writes.all hv rfl <| Writes.all hv rfl <| Writes.all hv rfl <| Writes.all hv rfl <| Writes.all hv rfl <| Writes.all hv rfl <| Writes.since rfl <| Writes.done).symm rfl

theorem DescribedGroup15.parses {v : Int16} (hv : 0 ≤ v) (t0 : DescribedGroup15) :
    Parses (DescribedGroup15.decode v t0) ((Ty.struct Protocol.DescribedGroup).parse v) (fun x => DescribedGroup15.of v x t0) :=
  FParses.parses (fs := Protocol.DescribedGroup)
    (FParses.field hv (set := fun (t : DescribedGroup15) x => { t with ErrorCode := x }) par_int16 <|
    FParses.field hv (set := fun (t : DescribedGroup15) x => { t with GroupId := x }) par_string <|
    FParses.field hv (set := fun (t : DescribedGroup15) x => { t with GroupState := x }) par_string <|
    FParses.field hv (set := fun (t : DescribedGroup15) x => { t with ProtocolType := x }) par_string <|
    FParses.field hv (set := fun (t : DescribedGroup15) x => { t with ProtocolData := x }) par_string <|
    FParses.structs hv (get := fun (t : DescribedGroup15) => t.Members) (set := fun (t : DescribedGroup15) x => { t with Members := x }) (DescribedGroupMember15.parses hv {}) <|
    FParses.optField (c := v ≥ 3) Iff.rfl (set := fun (t : DescribedGroup15) x => { t with AuthorizedOperations := x }) (·.AuthorizedOperations) (fun _ => rfl) par_int32 <|
    FParses.done)
    (by simp only [DescribedGroup15.decode, Dec.andThen_assoc, Dec.andThen_nop]) (Fields.distinct_nodup _ (by decide +kernel)) (fun _ _ => rfl) t0

theorem DescribedGroup15.shown {v : Int16} (hv : 0 ≤ v) (x : Val) (h : Protocol.DescribedGroup.Typed v x) :
    Protocol.DescribedGroup.shows v x (DescribedGroup15.val (DescribedGroup15.of v x {})) = true :=
  Shows.all hv (show_int16 (Fields.Typed.head (h) hv)) <|
    Shows.all hv (show_string (Fields.Typed.head (Fields.Typed.tail h) hv)) <|
    Shows.all hv (show_string (Fields.Typed.head (Fields.Typed.tail (Fields.Typed.tail h)) hv)) <|
    Shows.all hv (show_string (Fields.Typed.head (Fields.Typed.tail (Fields.Typed.tail (Fields.Typed.tail h))) hv)) <|
    Shows.all hv (show_string (Fields.Typed.head (Fields.Typed.tail (Fields.Typed.tail (Fields.Typed.tail (Fields.Typed.tail h)))) hv)) <|
    Shows.all hv (show_structs (f := DescribedGroupMember15.val) (g := fun y => DescribedGroupMember15.of v y {}) (fun y hy => DescribedGroupMember15.shown hv y hy) (Fields.Typed.head (Fields.Typed.tail (Fields.Typed.tail (Fields.Typed.tail (Fields.Typed.tail (Fields.Typed.tail h))))) hv)) <|
    Shows.since (.int32) rfl (fun hc => show_int32 (Fields.Typed.head (Fields.Typed.tail (Fields.Typed.tail (Fields.Typed.tail (Fields.Typed.tail (Fields.Typed.tail (Fields.Typed.tail h)))))) hc)) rfl <|
    rfl

/-- `DescribeGroupsResponse` as a value of the protocol. -/
def DescribeGroupsResponse.val (t : DescribeGroupsResponse) : Val :=
  .struct [("ThrottleTimeMs", .int32 t.ThrottleTimeMs),
    ("Groups", ofStructs DescribedGroup15.val t.Groups)]

theorem DescribeGroupsResponse.conforms {v : Int16} (hv : 0 ≤ v) (t : DescribeGroupsResponse) :
    Protocol.DescribeGroupsResponse.wire false v (DescribeGroupsResponse.val t) = DescribeGroupsResponse.wire v t :=
  Writes.eq <|
    Writes.since (Protocol.wire_int32 v t.ThrottleTimeMs) <|
    Writes.all hv (Protocol.wire_structs v (DescribedGroup15.conforms hv) t.Groups) <|
    Writes.done

/-- There is nothing that may not be nil. -/
def DescribeGroupsResponse.Full (_v : Int16) (_t : DescribeGroupsResponse) : Prop := True

theorem DescribeGroupsResponse.valid {v : Int16} (hv : 0 ≤ v) (t : DescribeGroupsResponse) (h : t.Fits v) (_hf : t.Full v) :
    Protocol.DescribeGroupsResponse.Valid true v (DescribeGroupsResponse.val t) :=
  Valids.since (fun _ => trivial) <|
    Valids.all (valid_structs (fun y h hf => DescribedGroup15.valid hv y h hf) (h.Groups) (fun _ _ => trivial)) <|
    trivial

/-- What `DescribeGroupsResponse` holds after reading the value `x` into `t0`. -/
def DescribeGroupsResponse.of (v : Int16) (x : Val) (t0 : DescribeGroupsResponse) : DescribeGroupsResponse :=
  { ThrottleTimeMs := if v ≥ 1 then (x.get "ThrottleTimeMs").toInt32 else t0.ThrottleTimeMs,
    Groups := (x.get "Groups").toSliceOr (fun y => DescribedGroup15.of v y {}) t0.Groups }

theorem DescribeGroupsResponse.decodes {v : Int16} (hv : 0 ≤ v) (x : Val) (h : Protocol.DescribeGroupsResponse.Valid false v x) (t0 : DescribeGroupsResponse) :
    Reads (DescribeGroupsResponse.decode v t0) (Protocol.DescribeGroupsResponse.wire false v x) (DescribeGroupsResponse.of v x t0) :=
  Reads.congr (((Step.optField (c := v ≥ 1) (set := fun (t : DescribeGroupsResponse) x => { t with ThrottleTimeMs := x }) (·.ThrottleTimeMs) (fun _ => rfl) fun hc => read_int32 (Fields.Valid.head (h) hc))
      |>.andThen (Step.readStructs (get := fun (t : DescribeGroupsResponse) => t.Groups) (set := fun (t : DescribeGroupsResponse) x => { t with Groups := x }) (fun y hy => DescribedGroup15.decodes hv y hy {}) (Fields.Valid.head (Fields.Valid.tail h) hv)) : Step _ _ _) t0)
    (Writes.eq (fs := Protocol.DescribeGroupsResponse) (v := v) (x := x) <| Writes.since rfl <| Writes.all hv rfl <| Writes.done).symm rfl

theorem DescribeGroupsResponse.parses {v : Int16} (hv : 0 ≤ v) (t0 : DescribeGroupsResponse) :
    Parses (DescribeGroupsResponse.decode v t0) ((Ty.struct Protocol.DescribeGroupsResponse).parse v) (fun x => DescribeGroupsResponse.of v x t0) :=
  FParses.parses (fs := Protocol.DescribeGroupsResponse)
    (FParses.optField (c := v ≥ 1) Iff.rfl (set := fun (t : DescribeGroupsResponse) x => { t with ThrottleTimeMs := x }) (·.ThrottleTimeMs) (fun _ => rfl) par_int32 <|
    FParses.structs hv (get := fun (t : DescribeGroupsResponse) => t.Groups) (set := fun (t : DescribeGroupsResponse) x => { t with Groups := x }) (DescribedGroup15.parses hv {}) <|
    FParses.done)
    (by simp only [DescribeGroupsResponse.decode, Dec.andThen_nop]) (Fields.distinct_nodup _ (by decide +kernel)) (fun _ _ => rfl) t0

theorem DescribeGroupsResponse.shown {v : Int16} (hv : 0 ≤ v) (x : Val) (h : Protocol.DescribeGroupsResponse.Typed v x) :
    Protocol.DescribeGroupsResponse.shows v x (DescribeGroupsResponse.val (DescribeGroupsResponse.of v x {})) = true :=
  Shows.since (.int32) rfl (fun hc => show_int32 (Fields.Typed.head (h) hc)) rfl <|
    Shows.all hv (show_structs (f := DescribedGroup15.val) (g := fun y => DescribedGroup15.of v y {}) (fun y hy => DescribedGroup15.shown hv y hy) (Fields.Typed.head (Fields.Typed.tail h) hv)) <|
    rfl

end Kafka.Msg
