import Verif.Protocol.ParseLemmas
import Verif.Gen.Spec.DeleteGroups
/-!
Generated by tools/gen_protocol.py: the DeleteGroups messages are written and read as the protocol says.
-/
namespace Kafka.Msg

open Protocol

/-- `DeleteGroupsRequest` as a value of the protocol. -/
def DeleteGroupsRequest.val (t : DeleteGroupsRequest) : Val :=
  .struct [("GroupsNames", ofScalars (fun s => .str (some s)) t.GroupsNames)]

theorem DeleteGroupsRequest.conforms {v : Int16} (hv : 0 ≤ v) (t : DeleteGroupsRequest) :
    Protocol.DeleteGroupsRequest.wire false v (DeleteGroupsRequest.val t) = DeleteGroupsRequest.wire v t :=
  Writes.eq <|
    Writes.all hv (Protocol.wire_stringArray v t.GroupsNames) <|
    Writes.done

/-- No slice of scalars is nil where the protocol has no null. -/
structure DeleteGroupsRequest.Full (v : Int16) (t : DeleteGroupsRequest) : Prop where
  GroupsNames : t.GroupsNames.NotNil

theorem DeleteGroupsRequest.valid {v : Int16} (_hv : 0 ≤ v) (t : DeleteGroupsRequest) (h : t.Fits v) (hf : t.Full v) :
    Protocol.DeleteGroupsRequest.Valid true v (DeleteGroupsRequest.val t) :=
  Valids.all (valid_stringArray (h.GroupsNames) (.inr (hf.GroupsNames))) <|
    trivial

/-- `DeletableGroupResult42` as a value of the protocol. -/
def DeletableGroupResult42.val (t : DeletableGroupResult42) : Val :=
  .struct [("GroupId", .str (some t.GroupId)),
    ("ErrorCode", .int16 t.ErrorCode)]

theorem DeletableGroupResult42.conforms {v : Int16} (hv : 0 ≤ v) (t : DeletableGroupResult42) :
    Protocol.DeletableGroupResult.wire false v (DeletableGroupResult42.val t) = DeletableGroupResult42.wire v t :=
  Writes.eq <|
    Writes.all hv (Protocol.wire_string v t.GroupId) <|
    Writes.all hv (Protocol.wire_int16 v t.ErrorCode) <|
    Writes.done

/-- There is nothing that may not be nil. -/
def DeletableGroupResult42.Full (_v : Int16) (_t : DeletableGroupResult42) : Prop := True

theorem DeletableGroupResult42.valid {v : Int16} (_hv : 0 ≤ v) (t : DeletableGroupResult42) (h : t.Fits v) (_hf : t.Full v) :
    Protocol.DeletableGroupResult.Valid true v (DeletableGroupResult42.val t) :=
  Valids.all (valid_string (h.GroupId)) <|
    Valids.all trivial <|
    trivial

/-- What `DeletableGroupResult42` holds after reading the value `x` into `t0`. -/
def DeletableGroupResult42.of (_v : Int16) (x : Val) (_t0 : DeletableGroupResult42) : DeletableGroupResult42 :=
  { GroupId := (x.get "GroupId").toStr,
    ErrorCode := (x.get "ErrorCode").toInt16 }

theorem DeletableGroupResult42.decodes {v : Int16} (hv : 0 ≤ v) (x : Val) (h : Protocol.DeletableGroupResult.Valid false v x) (t0 : DeletableGroupResult42) :
    Reads (DeletableGroupResult42.decode v t0) (Protocol.DeletableGroupResult.wire false v x) (DeletableGroupResult42.of v x t0) :=
  Reads.congr (((Step.field (set := fun (t : DeletableGroupResult42) x => { t with GroupId := x }) (read_string (Fields.Valid.head (h) hv)))
      |>.andThen (Step.field (set := fun (t : DeletableGroupResult42) x => { t with ErrorCode := x }) (read_int16 (Fields.Valid.head (Fields.Valid.tail h) hv))) : Step _ _ _) t0)
    (Writes.eq (fs := Protocol.DeletableGroupResult) (v := v) (x := x) <| Writes.all hv rfl <| Writes.all hv rfl <| Writes.done).symm rfl

theorem DeletableGroupResult42.parses {v : Int16} (hv : 0 ≤ v) (t0 : DeletableGroupResult42) :
    Parses (DeletableGroupResult42.decode v t0) ((Ty.struct Protocol.DeletableGroupResult).parse v) (fun x => DeletableGroupResult42.of v x t0) :=
  FParses.parses (fs := Protocol.DeletableGroupResult)
    (FParses.field hv (set := fun (t : DeletableGroupResult42) x => { t with GroupId := x }) par_string <|
    FParses.field hv (set := fun (t : DeletableGroupResult42) x => { t with ErrorCode := x }) par_int16 <|
    FParses.done)
    (by simp only [DeletableGroupResult42.decode, Dec.andThen_nop]) (Fields.distinct_nodup _ (by decide +kernel)) (fun _ _ => rfl) t0

theorem DeletableGroupResult42.shown {v : Int16} (hv : 0 ≤ v) (x : Val) (h : Protocol.DeletableGroupResult.Typed v x) :
    Protocol.DeletableGroupResult.shows v x (DeletableGroupResult42.val (DeletableGroupResult42.of v x {})) = true :=
  Shows.all hv (show_string (Fields.Typed.head (h) hv)) <|
    Shows.all hv (show_int16 (Fields.Typed.head (Fields.Typed.tail h) hv)) <|
    rfl

/-- `DeleteGroupsResponse` as a value of the protocol. -/
def DeleteGroupsResponse.val (t : DeleteGroupsResponse) : Val :=
  .struct [("ThrottleTimeMs", .int32 t.ThrottleTimeMs),
    ("Results", ofStructs DeletableGroupResult42.val t.Results)]

theorem DeleteGroupsResponse.conforms {v : Int16} (hv : 0 ≤ v) (t : DeleteGroupsResponse) :
    Protocol.DeleteGroupsResponse.wire false v (DeleteGroupsResponse.val t) = DeleteGroupsResponse.wire v t :=
  Writes.eq <|
    Writes.all hv (Protocol.wire_int32 v t.ThrottleTimeMs) <|
    Writes.all hv (Protocol.wire_structs v (DeletableGroupResult42.conforms hv) t.Results) <|
    Writes.done

/-- There is nothing that may not be nil. -/
def DeleteGroupsResponse.Full (_v : Int16) (_t : DeleteGroupsResponse) : Prop := True

theorem DeleteGroupsResponse.valid {v : Int16} (hv : 0 ≤ v) (t : DeleteGroupsResponse) (h : t.Fits v) (_hf : t.Full v) :
    Protocol.DeleteGroupsResponse.Valid true v (DeleteGroupsResponse.val t) :=
  Valids.all trivial <|
    Valids.all (valid_structs (fun y h hf => DeletableGroupResult42.valid hv y h hf) (h.Results) (fun _ _ => trivial)) <|
    trivial

/-- What `DeleteGroupsResponse` holds after reading the value `x` into `t0`. -/
def DeleteGroupsResponse.of (v : Int16) (x : Val) (t0 : DeleteGroupsResponse) : DeleteGroupsResponse :=
  { ThrottleTimeMs := (x.get "ThrottleTimeMs").toInt32,
    Results := (x.get "Results").toSliceOr (fun y => DeletableGroupResult42.of v y {}) t0.Results }

theorem DeleteGroupsResponse.decodes {v : Int16} (hv : 0 ≤ v) (x : Val) (h : Protocol.DeleteGroupsResponse.Valid false v x) (t0 : DeleteGroupsResponse) :
    Reads (DeleteGroupsResponse.decode v t0) (Protocol.DeleteGroupsResponse.wire false v x) (DeleteGroupsResponse.of v x t0) :=
  Reads.congr (((Step.field (set := fun (t : DeleteGroupsResponse) x => { t with ThrottleTimeMs := x }) (read_int32 (Fields.Valid.head (h) hv)))
      |>.andThen (Step.readStructs (get := fun (t : DeleteGroupsResponse) => t.Results) (set := fun (t : DeleteGroupsResponse) x => { t with Results := x }) (fun y hy => DeletableGroupResult42.decodes hv y hy {}) (Fields.Valid.head (Fields.Valid.tail h) hv)) : Step _ _ _) t0)
    (Writes.eq (fs := Protocol.DeleteGroupsResponse) (v := v) (x := x) <| Writes.all hv rfl <| Writes.all hv rfl <| Writes.done).symm rfl

theorem DeleteGroupsResponse.parses {v : Int16} (hv : 0 ≤ v) (t0 : DeleteGroupsResponse) :
    Parses (DeleteGroupsResponse.decode v t0) ((Ty.struct Protocol.DeleteGroupsResponse).parse v) (fun x => DeleteGroupsResponse.of v x t0) :=
  FParses.parses (fs := Protocol.DeleteGroupsResponse)
    (FParses.field hv (set := fun (t : DeleteGroupsResponse) x => { t with ThrottleTimeMs := x }) par_int32 <|
    FParses.structs hv (get := fun (t : DeleteGroupsResponse) => t.Results) (set := fun (t : DeleteGroupsResponse) x => { t with Results := x }) (DeletableGroupResult42.parses hv {}) <|
    FParses.done)
    (by simp only [DeleteGroupsResponse.decode, Dec.andThen_nop]) (Fields.distinct_nodup _ (by decide +kernel)) (fun _ _ => rfl) t0

theorem DeleteGroupsResponse.shown {v : Int16} (hv : 0 ≤ v) (x : Val) (h : Protocol.DeleteGroupsResponse.Typed v x) :
    Protocol.DeleteGroupsResponse.shows v x (DeleteGroupsResponse.val (DeleteGroupsResponse.of v x {})) = true :=
  Shows.all hv (show_int32 (Fields.Typed.head (h) hv)) <|
    Shows.all hv (show_structs (f := DeletableGroupResult42.val) (g := fun y => DeletableGroupResult42.of v y {}) (fun y hy => DeletableGroupResult42.shown hv y hy) (Fields.Typed.head (Fields.Typed.tail h) hv)) <|
    rfl

end Kafka.Msg
