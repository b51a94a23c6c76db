import Verif.Protocol.ParseLemmas
import Verif.Gen.Spec.DeleteAcls
/-!
Generated by tools/gen_protocol.py: the DeleteAcls messages are written and read as the protocol says.
-/
namespace Kafka.Msg

open Protocol

/-- `DeleteAclsFilter31` as a value of the protocol. -/
def DeleteAclsFilter31.val (t : DeleteAclsFilter31) : Val :=
  .struct [("ResourceTypeFilter", .int8 t.ResourceTypeFilter),
    ("ResourceNameFilter", .str (some t.ResourceNameFilter)),
    ("PatternTypeFilter", .int8 t.PatternTypeFilter),
    ("PrincipalFilter", .str (some t.PrincipalFilter)),
    ("HostFilter", .str (some t.HostFilter)),
    ("Operation", .int8 t.Operation),
    ("PermissionType", .int8 t.PermissionType)]

theorem DeleteAclsFilter31.conforms {v : Int16} (hv : 0 ≤ v) (t : DeleteAclsFilter31) :
    Protocol.DeleteAclsFilter.wire false v (DeleteAclsFilter31.val t) = DeleteAclsFilter31.wire v t :=
  Writes.eq <|
    Writes.all hv (Protocol.wire_int8 v t.ResourceTypeFilter) <|
    Writes.all hv (Protocol.wire_string v t.ResourceNameFilter) <|
    Writes.since (Protocol.wire_int8 v t.PatternTypeFilter) <|
    Writes.all hv (Protocol.wire_string v t.PrincipalFilter) <|
    Writes.all hv (Protocol.wire_string v t.HostFilter) <|
    Writes.all hv (Protocol.wire_int8 v t.Operation) <|
    Writes.all hv (Protocol.wire_int8 v t.PermissionType) <|
    Writes.done

/-- There is nothing that may not be nil. -/
def DeleteAclsFilter31.Full (_v : Int16) (_t : DeleteAclsFilter31) : Prop := True

theorem DeleteAclsFilter31.valid {v : Int16} (_hv : 0 ≤ v) (t : DeleteAclsFilter31) (h : t.Fits v) (_hf : t.Full v) :
    Protocol.DeleteAclsFilter.Valid true v (DeleteAclsFilter31.val t) :=
  Valids.all trivial <|
    Valids.all (valid_string (h.ResourceNameFilter)) <|
    Valids.since (fun _ => trivial) <|
    Valids.all (valid_string (h.PrincipalFilter)) <|
    Valids.all (valid_string (h.HostFilter)) <|
    Valids.all trivial <|
    Valids.all trivial <|
    trivial

/-- `DeleteAclsRequest` as a value of the protocol. -/
def DeleteAclsRequest.val (t : DeleteAclsRequest) : Val :=
  .struct [("Filters", ofStructs DeleteAclsFilter31.val t.Filters)]

theorem DeleteAclsRequest.conforms {v : Int16} (hv : 0 ≤ v) (t : DeleteAclsRequest) :
    Protocol.DeleteAclsRequest.wire false v (DeleteAclsRequest.val t) = DeleteAclsRequest.wire v t :=
  Writes.eq <|
    Writes.all hv (Protocol.wire_structs v (DeleteAclsFilter31.conforms hv) t.Filters) <|
    Writes.done

/-- There is nothing that may not be nil. -/
def DeleteAclsRequest.Full (_v : Int16) (_t : DeleteAclsRequest) : Prop := True

theorem DeleteAclsRequest.valid {v : Int16} (hv : 0 ≤ v) (t : DeleteAclsRequest) (h : t.Fits v) (_hf : t.Full v) :
    Protocol.DeleteAclsRequest.Valid true v (DeleteAclsRequest.val t) :=
  Valids.all (valid_structs (fun y h hf => DeleteAclsFilter31.valid hv y h hf) (h.Filters) (fun _ _ => trivial)) <|
    trivial

/-- `DeleteAclsMatchingAcl31` as a value of the protocol. -/
def DeleteAclsMatchingAcl31.val (t : DeleteAclsMatchingAcl31) : Val :=
  .struct [("ErrorCode", .int16 t.ErrorCode),
    ("ErrorMessage", .str (some t.ErrorMessage)),
    ("ResourceType", .int8 t.ResourceType),
    ("ResourceName", .str (some t.ResourceName)),
    ("PatternType", .int8 t.PatternType),
    ("Principal", .str (some t.Principal)),
    ("Host", .str (some t.Host)),
    ("Operation", .int8 t.Operation),
    ("PermissionType", .int8 t.PermissionType)]

theorem DeleteAclsMatchingAcl31.conforms {v : Int16} (hv : 0 ≤ v) (t : DeleteAclsMatchingAcl31) :
    Protocol.DeleteAclsMatchingAcl.wire false v (DeleteAclsMatchingAcl31.val t) = DeleteAclsMatchingAcl31.wire v t :=
  Writes.eq <|
    Writes.all hv (Protocol.wire_int16 v t.ErrorCode) <|
    Writes.all hv (Protocol.wire_string v t.ErrorMessage) <|
    Writes.all hv (Protocol.wire_int8 v t.ResourceType) <|
    Writes.all hv (Protocol.wire_string v t.ResourceName) <|
    Writes.since (Protocol.wire_int8 v t.PatternType) <|
    Writes.all hv (Protocol.wire_string v t.Principal) <|
    Writes.all hv (Protocol.wire_string v t.Host) <|
    Writes.all hv (Protocol.wire_int8 v t.Operation) <|
    Writes.all hv (Protocol.wire_int8 v t.PermissionType) <|
    Writes.done

/-- There is nothing that may not be nil. -/
def DeleteAclsMatchingAcl31.Full (_v : Int16) (_t : DeleteAclsMatchingAcl31) : Prop := True

theorem DeleteAclsMatchingAcl31.valid {v : Int16} (_hv : 0 ≤ v) (t : DeleteAclsMatchingAcl31) (h : t.Fits v) (_hf : t.Full v) :
    Protocol.DeleteAclsMatchingAcl.Valid true v (DeleteAclsMatchingAcl31.val t) :=
  Valids.all trivial <|
    Valids.all (valid_string (h.ErrorMessage)) <|
    Valids.all trivial <|
    Valids.all (valid_string (h.ResourceName)) <|
    Valids.since (fun _ => trivial) <|
    Valids.all (valid_string (h.Principal)) <|
    Valids.all (valid_string (h.Host)) <|
    Valids.all trivial <|
    Valids.all trivial <|
    trivial

/-- What `DeleteAclsMatchingAcl31` holds after reading the value `x` into `t0`. -/
def DeleteAclsMatchingAcl31.of (v : Int16) (x : Val) (t0 : DeleteAclsMatchingAcl31) : DeleteAclsMatchingAcl31 :=
  { ErrorCode := (x.get "ErrorCode").toInt16,
    ErrorMessage := (x.get "ErrorMessage").toStr,
    ResourceType := (x.get "ResourceType").toInt8,
    ResourceName := (x.get "ResourceName").toStr,
    PatternType := if v ≥ 1 then (x.get "PatternType").toInt8 else t0.PatternType,
    Principal := (x.get "Principal").toStr,
    Host := (x.get "Host").toStr,
    Operation := (x.get "Operation").toInt8,
    PermissionType := (x.get "PermissionType").toInt8 }

theorem DeleteAclsMatchingAcl31.decodes {v : Int16} (hv : 0 ≤ v) (x : Val) (h : Protocol.DeleteAclsMatchingAcl.Valid false v x) (t0 : DeleteAclsMatchingAcl31) :
    Reads (DeleteAclsMatchingAcl31.decode v t0) (Protocol.DeleteAclsMatchingAcl.wire false v x) (DeleteAclsMatchingAcl31.of v x t0) :=
  Reads.congr (((Step.field (set := fun (t : DeleteAclsMatchingAcl31) x => { t with ErrorCode := x }) (read_int16 (Fields.Valid.head (h) hv)))
      |>.andThen (Step.field (set := fun (t : DeleteAclsMatchingAcl31) x => { t with ErrorMessage := x }) (read_string (Fields.Valid.head (Fields.Valid.tail h) hv)))
      |>.andThen (Step.field (set := fun (t : DeleteAclsMatchingAcl31) x => { t with ResourceType := x }) (read_int8 (Fields.Valid.head (Fields.Valid.tail (Fields.Valid.tail h)) hv)))
      |>.andThen (Step.field (set := fun (t : DeleteAclsMatchingAcl31) x => { t with ResourceName := x }) (read_string (Fields.Valid.head (Fields.Valid.tail (Fields.Valid.tail (Fields.Valid.tail h))) hv)))
      |>.andThen (Step.optField (c := v ≥ 1) (set := fun (t : DeleteAclsMatchingAcl31) x => { t with PatternType := x }) (·.PatternType) (fun _ => rfl) fun hc => read_int8 (Fields.Valid.head (Fields.Valid.tail (Fields.Valid.tail (Fields.Valid.tail (Fields.Valid.tail h)))) hc))
      |>.andThen (Step.field (set := fun (t : DeleteAclsMatchingAcl31) x => { t with Principal := x }) (read_string (Fields.Valid.head (Fields.Valid.tail (Fields.Valid.tail (Fields.Valid.tail (Fields.Valid.tail (Fields.Valid.tail h))))) hv)))
      |>.andThen (Step.field (set := fun (t : DeleteAclsMatchingAcl31) x => { t with Host := x }) (read_string (Fields.Valid.head (Fields.Valid.tail (Fields.Valid.tail (Fields.Valid.tail (Fields.Valid.tail (Fields.Valid.tail (Fields.Valid.tail h)))))) hv)))
      |>.andThen (Step.field (set := fun (t : DeleteAclsMatchingAcl31) x => { t with Operation := x }) (read_int8 (Fields.Valid.head (Fields.Valid.tail (Fields.Valid.tail (Fields.Valid.tail (Fields.Valid.tail (Fields.Valid.tail (Fields.Valid.tail (Fields.Valid.tail h))))))) hv)))
      |>.andThen (Step.field (set := fun (t : DeleteAclsMatchingAcl31) x => { t with PermissionType := x }) (read_int8 (Fields.Valid.head (Fields.Valid.tail (Fields.Valid.tail (Fields.Valid.tail (Fields.Valid.tail (Fields.Valid.tail (Fields.Valid.tail (Fields.Valid.tail (Fields.Valid.tail h)))))))) hv))) : Step _ _ _) t0)
    (Writes.eq (fs := Protocol.DeleteAclsMatchingAcl) (v := v) (x := x) <| Writes.all hv rfl <| Writes.all hv rfl <| Writes.all hv rfl <| Writes.all hv rfl <| Writes.since rfl <| Writes.all hv rfl <| Writes.all hv rfl <| Writes.all hv rfl <| Writes.all hv rfl <| Writes.done).symm rfl

theorem DeleteAclsMatchingAcl31.parses {v : Int16} (hv : 0 ≤ v) (t0 : DeleteAclsMatchingAcl31) :
    Parses (DeleteAclsMatchingAcl31.decode v t0) ((Ty.struct Protocol.DeleteAclsMatchingAcl).parse v) (fun x => DeleteAclsMatchingAcl31.of v x t0) :=
  FParses.parses (fs := Protocol.DeleteAclsMatchingAcl)
    (FParses.field hv (set := fun (t : DeleteAclsMatchingAcl31) x => { t with ErrorCode := x }) par_int16 <|
    FParses.field hv (set := fun (t : DeleteAclsMatchingAcl31) x => { t with ErrorMessage := x }) par_string <|
    FParses.field hv (set := fun (t : DeleteAclsMatchingAcl31) x => { t with ResourceType := x }) par_int8 <|
    FParses.field hv (set := fun (t : DeleteAclsMatchingAcl31) x => { t with ResourceName := x }) par_string <|
    FParses.optField (c := v ≥ 1) Iff.rfl (set := fun (t : DeleteAclsMatchingAcl31) x => { t with PatternType := x }) (·.PatternType) (fun _ => rfl) par_int8 <|
    FParses.field hv (set := fun (t : DeleteAclsMatchingAcl31) x => { t with Principal := x }) par_string <|
    FParses.field hv (set := fun (t : DeleteAclsMatchingAcl31) x => { t with Host := x }) par_string <|
    FParses.field hv (set := fun (t : DeleteAclsMatchingAcl31) x => { t with Operation := x }) par_int8 <|
    FParses.field hv (set := fun (t : DeleteAclsMatchingAcl31) x => { t with PermissionType := x }) par_int8 <|
    FParses.done)
    (by simp only [DeleteAclsMatchingAcl31.decode, Dec.andThen_assoc, Dec.andThen_nop]) (Fields.distinct_nodup _ (by decide +kernel)) (fun _ _ => rfl) t0

theorem DeleteAclsMatchingAcl31.shown {v : Int16} (hv : 0 ≤ v) (x : Val) (h : Protocol.DeleteAclsMatchingAcl.Typed v x) :
    Protocol.DeleteAclsMatchingAcl.shows v x (DeleteAclsMatchingAcl31.val (DeleteAclsMatchingAcl31.of v x {})) = true :=
  Shows.all hv (show_int16 (Fields.Typed.head (h) hv)) <|
    Shows.all hv (show_string (Fields.Typed.head (Fields.Typed.tail h) hv)) <|
    Shows.all hv (show_int8 (Fields.Typed.head (Fields.Typed.tail (Fields.Typed.tail h)) hv)) <|
    Shows.all hv (show_string (Fields.Typed.head (Fields.Typed.tail (Fields.Typed.tail (Fields.Typed.tail h))) hv)) <|
    Shows.since (.int8) rfl (fun hc => show_int8 (Fields.Typed.head (Fields.Typed.tail (Fields.Typed.tail (Fields.Typed.tail (Fields.Typed.tail h)))) hc)) rfl <|
    Shows.all hv (show_string (Fields.Typed.head (Fields.Typed.tail (Fields.Typed.tail (Fields.Typed.tail (Fields.Typed.tail (Fields.Typed.tail h))))) hv)) <|
    Shows.all hv (show_string (Fields.Typed.head (Fields.Typed.tail (Fields.Typed.tail (Fields.Typed.tail (Fields.Typed.tail (Fields.Typed.tail (Fields.Typed.tail h)))))) hv)) <|
    Shows.all hv (show_int8 (Fields.Typed.head (Fields.Typed.tail (Fields.Typed.tail (Fields.Typed.tail (Fields.Typed.tail (Fields.Typed.tail (Fields.Typed.tail (Fields.Typed.tail h))))))) hv)) <|
    Shows.all hv (show_int8 (Fields.Typed.head (Fields.Typed.tail (Fields.Typed.tail (Fields.Typed.tail (Fields.Typed.tail (Fields.Typed.tail (Fields.Typed.tail (Fields.Typed.tail (Fields.Typed.tail h)))))))) hv)) <|
    rfl

/-- `DeleteAclsFilterResult31` as a value of the protocol. -/
def DeleteAclsFilterResult31.val (t : DeleteAclsFilterResult31) : Val :=
  .struct [("ErrorCode", .int16 t.ErrorCode),
    ("ErrorMessage", .str (some t.ErrorMessage)),
    ("MatchingAcls", ofStructs DeleteAclsMatchingAcl31.val t.MatchingAcls)]

theorem DeleteAclsFilterResult31.conforms {v : Int16} (hv : 0 ≤ v) (t : DeleteAclsFilterResult31) :
    Protocol.DeleteAclsFilterResult.wire false v (DeleteAclsFilterResult31.val t) = DeleteAclsFilterResult31.wire v t :=
  Writes.eq <|
    Writes.all hv (Protocol.wire_int16 v t.ErrorCode) <|
    Writes.all hv (Protocol.wire_string v t.ErrorMessage) <|
    Writes.all hv (Protocol.wire_structs v (DeleteAclsMatchingAcl31.conforms hv) t.MatchingAcls) <|
    Writes.done

/-- There is nothing that may not be nil. -/
def DeleteAclsFilterResult31.Full (_v : Int16) (_t : DeleteAclsFilterResult31) : Prop := True

theorem DeleteAclsFilterResult31.valid {v : Int16} (hv : 0 ≤ v) (t : DeleteAclsFilterResult31) (h : t.Fits v) (_hf : t.Full v) :
    Protocol.DeleteAclsFilterResult.Valid true v (DeleteAclsFilterResult31.val t) :=
  Valids.all trivial <|
    Valids.all (valid_string (h.ErrorMessage)) <|
    Valids.all (valid_structs (fun y h hf => DeleteAclsMatchingAcl31.valid hv y h hf) (h.MatchingAcls) (fun _ _ => trivial)) <|
    trivial

/-- What `DeleteAclsFilterResult31` holds after reading the value `x` into `t0`. -/
def DeleteAclsFilterResult31.of (v : Int16) (x : Val) (t0 : DeleteAclsFilterResult31) : DeleteAclsFilterResult31 :=
  { ErrorCode := (x.get "ErrorCode").toInt16,
    ErrorMessage := (x.get "ErrorMessage").toStr,
    MatchingAcls := (x.get "MatchingAcls").toSliceOr (fun y => DeleteAclsMatchingAcl31.of v y {}) t0.MatchingAcls }

theorem DeleteAclsFilterResult31.decodes {v : Int16} (hv : 0 ≤ v) (x : Val) (h : Protocol.DeleteAclsFilterResult.Valid false v x) (t0 : DeleteAclsFilterResult31) :
    Reads (DeleteAclsFilterResult31.decode v t0) (Protocol.DeleteAclsFilterResult.wire false v x) (DeleteAclsFilterResult31.of v x t0) :=
  Reads.congr (((Step.field (set := fun (t : DeleteAclsFilterResult31) x => { t with ErrorCode := x }) (read_int16 (Fields.Valid.head (h) hv)))
      |>.andThen (Step.field (set := fun (t : DeleteAclsFilterResult31) x => { t with ErrorMessage := x }) (read_string (Fields.Valid.head (Fields.Valid.tail h) hv)))
      |>.andThen (Step.readStructs (get := fun (t : DeleteAclsFilterResult31) => t.MatchingAcls) (set := fun (t : DeleteAclsFilterResult31) x => { t with MatchingAcls := x }) (fun y hy => DeleteAclsMatchingAcl31.decodes hv y hy {}) (Fields.Valid.head (Fields.Valid.tail (Fields.Valid.tail h)) hv)) : Step _ _ _) t0)
    (Writes.eq (fs := Protocol.DeleteAclsFilterResult) (v := v) (x := x) <| Writes.all hv rfl <| Writes.all hv rfl <| Writes.all hv rfl <| Writes.done).symm rfl

theorem DeleteAclsFilterResult31.parses {v : Int16} (hv : 0 ≤ v) (t0 : DeleteAclsFilterResult31) :
    Parses (DeleteAclsFilterResult31.decode v t0) ((Ty.struct Protocol.DeleteAclsFilterResult).parse v) (fun x => DeleteAclsFilterResult31.of v x t0) :=
  FParses.parses (fs := Protocol.DeleteAclsFilterResult)
    (FParses.field hv (set := fun (t : DeleteAclsFilterResult31) x => { t with ErrorCode := x }) par_int16 <|
    FParses.field hv (set := fun (t : DeleteAclsFilterResult31) x => { t with ErrorMessage := x }) par_string <|
    FParses.structs hv (get := fun (t : DeleteAclsFilterResult31) => t.MatchingAcls) (set := fun (t : DeleteAclsFilterResult31) x => { t with MatchingAcls := x }) (DeleteAclsMatchingAcl31.parses hv {}) <|
    FParses.done)
    (by simp only [DeleteAclsFilterResult31.decode, Dec.andThen_assoc, Dec.andThen_nop]) (Fields.distinct_nodup _ (by decide +kernel)) (fun _ _ => rfl) t0

theorem DeleteAclsFilterResult31.shown {v : Int16} (hv : 0 ≤ v) (x : Val) (h : Protocol.DeleteAclsFilterResult.Typed v x) :
    Protocol.DeleteAclsFilterResult.shows v x (DeleteAclsFilterResult31.val (DeleteAclsFilterResult31.of v x {})) = true :=
  Shows.all hv (show_int16 (Fields.Typed.head (h) hv)) <|
    Shows.all hv (show_string (Fields.Typed.head (Fields.Typed.tail h) hv)) <|
    Shows.all hv (show_structs (f := DeleteAclsMatchingAcl31.val) (g := fun y => DeleteAclsMatchingAcl31.of v y {}) (fun y hy => DeleteAclsMatchingAcl31.shown hv y hy) (Fields.Typed.head (Fields.Typed.tail (Fields.Typed.tail h)) hv)) <|
    rfl

/-- `DeleteAclsResponse` as a value of the protocol. -/
def DeleteAclsResponse.val (t : DeleteAclsResponse) : Val :=
  .struct [("ThrottleTimeMs", .int32 t.ThrottleTimeMs),
    ("FilterResults", ofStructs DeleteAclsFilterResult31.val t.FilterResults)]

theorem DeleteAclsResponse.conforms {v : Int16} (hv : 0 ≤ v) (t : DeleteAclsResponse) :
    Protocol.DeleteAclsResponse.wire false v (DeleteAclsResponse.val t) = DeleteAclsResponse.wire v t :=
  Writes.eq <|
    Writes.all hv (Protocol.wire_int32 v t.ThrottleTimeMs) <|
    Writes.all hv (Protocol.wire_structs v (DeleteAclsFilterResult31.conforms hv) t.FilterResults) <|
    Writes.done

/-- There is nothing that may not be nil. -/
def DeleteAclsResponse.Full (_v : Int16) (_t : DeleteAclsResponse) : Prop := True

theorem DeleteAclsResponse.valid {v : Int16} (hv : 0 ≤ v) (t : DeleteAclsResponse) (h : t.Fits v) (_hf : t.Full v) :
    Protocol.DeleteAclsResponse.Valid true v (DeleteAclsResponse.val t) :=
  Valids.all trivial <|
    Valids.all (valid_structs (fun y h hf => DeleteAclsFilterResult31.valid hv y h hf) (h.FilterResults) (fun _ _ => trivial)) <|
    trivial

/-- What `DeleteAclsResponse` holds after reading the value `x` into `t0`. -/
def DeleteAclsResponse.of (v : Int16) (x : Val) (t0 : DeleteAclsResponse) : DeleteAclsResponse :=
  { ThrottleTimeMs := (x.get "ThrottleTimeMs").toInt32,
    FilterResults := (x.get "FilterResults").toSliceOr (fun y => DeleteAclsFilterResult31.of v y {}) t0.FilterResults }

theorem DeleteAclsResponse.decodes {v : Int16} (hv : 0 ≤ v) (x : Val) (h : Protocol.DeleteAclsResponse.Valid false v x) (t0 : DeleteAclsResponse) :
    Reads (DeleteAclsResponse.decode v t0) (Protocol.DeleteAclsResponse.wire false v x) (DeleteAclsResponse.of v x t0) :=
  Reads.congr (((Step.field (set := fun (t : DeleteAclsResponse) x => { t with ThrottleTimeMs := x }) (read_int32 (Fields.Valid.head (h) hv)))
      |>.andThen (Step.readStructs (get := fun (t : DeleteAclsResponse) => t.FilterResults) (set := fun (t : DeleteAclsResponse) x => { t with FilterResults := x }) (fun y hy => DeleteAclsFilterResult31.decodes hv y hy {}) (Fields.Valid.head (Fields.Valid.tail h) hv)) : Step _ _ _) t0)
    (Writes.eq (fs := Protocol.DeleteAclsResponse) (v := v) (x := x) <| Writes.all hv rfl <| Writes.all hv rfl <| Writes.done).symm rfl

theorem DeleteAclsResponse.parses {v : Int16} (hv : 0 ≤ v) (t0 : DeleteAclsResponse) :
    Parses (DeleteAclsResponse.decode v t0) ((Ty.struct Protocol.DeleteAclsResponse).parse v) (fun x => DeleteAclsResponse.of v x t0) :=
  FParses.parses (fs := Protocol.DeleteAclsResponse)
    (FParses.field hv (set := fun (t : DeleteAclsResponse) x => { t with ThrottleTimeMs := x }) par_int32 <|
    FParses.structs hv (get := fun (t : DeleteAclsResponse) => t.FilterResults) (set := fun (t : DeleteAclsResponse) x => { t with FilterResults := x }) (DeleteAclsFilterResult31.parses hv {}) <|
    FParses.done)
    (by simp only [DeleteAclsResponse.decode, Dec.andThen_nop]) (Fields.distinct_nodup _ (by decide +kernel)) (fun _ _ => rfl) t0

theorem DeleteAclsResponse.shown {v : Int16} (hv : 0 ≤ v) (x : Val) (h : Protocol.DeleteAclsResponse.Typed v x) :
    Protocol.DeleteAclsResponse.shows v x (DeleteAclsResponse.val (DeleteAclsResponse.of v x {})) = true :=
  Shows.all hv (show_int32 (Fields.Typed.head (h) hv)) <|
    Shows.all hv (show_structs (f := DeleteAclsFilterResult31.val) (g := fun y => DeleteAclsFilterResult31.of v y {}) (fun y hy => DeleteAclsFilterResult31.shown hv y hy) (Fields.Typed.head (Fields.Typed.tail h) hv)) <|
    rfl

end Kafka.Msg
