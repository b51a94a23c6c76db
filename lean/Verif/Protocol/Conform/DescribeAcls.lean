import Verif.Protocol.ParseLemmas
import Verif.Gen.Spec.DescribeAcls
/-!
Generated by tools/gen_protocol.py: the DescribeAcls messages are written and read as the protocol says.
-/
namespace Kafka.Msg

open Protocol

/-- `DescribeAclsRequest` as a value of the protocol. -/
def DescribeAclsRequest.val (t : DescribeAclsRequest) : Val :=
  .struct [("ResourceType", .int8 t.ResourceType),
    ("ResourceNameFilter", .str (some t.ResourceNameFilter)),
    ("ResourcePatternType", .int8 t.ResourcePatternType),
    ("PrincipalFilter", .str (some t.PrincipalFilter)),
    ("HostFilter", .str (some t.HostFilter)),
    ("Operation", .int8 t.Operation),
    ("PermissionType", .int8 t.PermissionType)]

theorem DescribeAclsRequest.conforms {v : Int16} (hv : 0 ≤ v) (t : DescribeAclsRequest) :
    Protocol.DescribeAclsRequest.wire false v (DescribeAclsRequest.val t) = DescribeAclsRequest.wire v t :=
  Writes.eq <|
    Writes.all hv (Protocol.wire_int8 v t.ResourceType) <|
    Writes.all hv (Protocol.wire_string v t.ResourceNameFilter) <|
    Writes.since (Protocol.wire_int8 v t.ResourcePatternType) <|
    Writes.all hv (Protocol.wire_string v t.PrincipalFilter) <|
    Writes.all hv (Protocol.wire_string v t.HostFilter) <|
    Writes.all hv (Protocol.wire_int8 v t.Operation) <|
    Writes.all hv (Protocol.wire_int8 v t.PermissionType) <|
    Writes.done

/-- There is nothing that may not be nil. -/
def DescribeAclsRequest.Full (_v : Int16) (_t : DescribeAclsRequest) : Prop := True

theorem DescribeAclsRequest.valid {v : Int16} (_hv : 0 ≤ v) (t : DescribeAclsRequest) (h : t.Fits v) (_hf : t.Full v) :
    Protocol.DescribeAclsRequest.Valid true v (DescribeAclsRequest.val t) :=
  Valids.all trivial <|
    Valids.all (valid_string (h.ResourceNameFilter)) <|
    Valids.since (fun _ => trivial) <|
    Valids.all (valid_string (h.PrincipalFilter)) <|
    Valids.all (valid_string (h.HostFilter)) <|
    Valids.all trivial <|
    Valids.all trivial <|
    trivial

/-- `AclDescription29` as a value of the protocol. -/
def AclDescription29.val (t : AclDescription29) : Val :=
  .struct [("Principal", .str (some t.Principal)),
    ("Host", .str (some t.Host)),
    ("Operation", .int8 t.Operation),
    ("PermissionType", .int8 t.PermissionType)]

theorem AclDescription29.conforms {v : Int16} (hv : 0 ≤ v) (t : AclDescription29) :
    Protocol.AclDescription.wire false v (AclDescription29.val t) = AclDescription29.wire v t :=
  Writes.eq <|
    Writes.all hv (Protocol.wire_string v t.Principal) <|
    Writes.all hv (Protocol.wire_string v t.Host) <|
    Writes.all hv (Protocol.wire_int8 v t.Operation) <|
    Writes.all hv (Protocol.wire_int8 v t.PermissionType) <|
    Writes.done

/-- There is nothing that may not be nil. -/
def AclDescription29.Full (_v : Int16) (_t : AclDescription29) : Prop := True

theorem AclDescription29.valid {v : Int16} (_hv : 0 ≤ v) (t : AclDescription29) (h : t.Fits v) (_hf : t.Full v) :
    Protocol.AclDescription.Valid true v (AclDescription29.val t) :=
  Valids.all (valid_string (h.Principal)) <|
    Valids.all (valid_string (h.Host)) <|
    Valids.all trivial <|
    Valids.all trivial <|
    trivial

/-- What `AclDescription29` holds after reading the value `x` into `t0`. -/
def AclDescription29.of (_v : Int16) (x : Val) (_t0 : AclDescription29) : AclDescription29 :=
  { Principal := (x.get "Principal").toStr,
    Host := (x.get "Host").toStr,
    Operation := (x.get "Operation").toInt8,
    PermissionType := (x.get "PermissionType").toInt8 }

theorem AclDescription29.decodes {v : Int16} (hv : 0 ≤ v) (x : Val) (h : Protocol.AclDescription.Valid false v x) (t0 : AclDescription29) :
    Reads (AclDescription29.decode v t0) (Protocol.AclDescription.wire false v x) (AclDescription29.of v x t0) :=
  Reads.congr (((Step.field (set := fun (t : AclDescription29) x => { t with Principal := x }) (read_string (Fields.Valid.head (h) hv)))
      |>.andThen (Step.field (set := fun (t : AclDescription29) x => { t with Host := x }) (read_string (Fields.Valid.head (Fields.Valid.tail h) hv)))
      |>.andThen (Step.field (set := fun (t : AclDescription29) x => { t with Operation := x }) (read_int8 (Fields.Valid.head (Fields.Valid.tail (Fields.Valid.tail h)) hv)))
      |>.andThen (Step.field (set := fun (t : AclDescription29) x => { t with PermissionType := x }) (read_int8 (Fields.Valid.head (Fields.Valid.tail (Fields.Valid.tail (Fields.Valid.tail h))) hv))) : Step _ _ _) t0)
    (Writes.eq (fs := Protocol.AclDescription) (v := v) (x := x) <| Writes.all hv rfl <| Writes.all hv rfl <| Writes.all hv rfl <| Writes.all hv rfl <| Writes.done).symm rfl

theorem AclDescription29.parses {v : Int16} (hv : 0 ≤ v) (t0 : AclDescription29) :
    Parses (AclDescription29.decode v t0) ((Ty.struct Protocol.AclDescription).parse v) (fun x => AclDescription29.of v x t0) :=
  FParses.parses (fs := Protocol.AclDescription)
    (FParses.field hv (set := fun (t : AclDescription29) x => { t with Principal := x }) par_string <|
    FParses.field hv (set := fun (t : AclDescription29) x => { t with Host := x }) par_string <|
    FParses.field hv (set := fun (t : AclDescription29) x => { t with Operation := x }) par_int8 <|
    FParses.field hv (set := fun (t : AclDescription29) x => { t with PermissionType := x }) par_int8 <|
    FParses.done)
    (by simp only [AclDescription29.decode, Dec.andThen_assoc, Dec.andThen_nop]) (Fields.distinct_nodup _ (by decide +kernel)) (fun _ _ => rfl) t0

theorem AclDescription29.shown {v : Int16} (hv : 0 ≤ v) (x : Val) (h : Protocol.AclDescription.Typed v x) :
    Protocol.AclDescription.shows v x (AclDescription29.val (AclDescription29.of v x {})) = true :=
  Shows.all hv (show_string (Fields.Typed.head (h) hv)) <|
    Shows.all hv (show_string (Fields.Typed.head (Fields.Typed.tail h) hv)) <|
    Shows.all hv (show_int8 (Fields.Typed.head (Fields.Typed.tail (Fields.Typed.tail h)) hv)) <|
    Shows.all hv (show_int8 (Fields.Typed.head (Fields.Typed.tail (Fields.Typed.tail (Fields.Typed.tail h))) hv)) <|
    rfl

/-- `DescribeAclsResource29` as a value of the protocol. -/
def DescribeAclsResource29.val (t : DescribeAclsResource29) : Val :=
  .struct [("Type", .int8 t.«Type»),
    ("Name", .str (some t.Name)),
    ("PatternType", .int8 t.PatternType),
    ("Acls", ofStructs AclDescription29.val t.Acls)]

theorem DescribeAclsResource29.conforms {v : Int16} (hv : 0 ≤ v) (t : DescribeAclsResource29) :
    Protocol.DescribeAclsResource.wire false v (DescribeAclsResource29.val t) = DescribeAclsResource29.wire v t :=
  Writes.eq <|
    Writes.all hv (Protocol.wire_int8 v t.«Type») <|
    Writes.all hv (Protocol.wire_string v t.Name) <|
    Writes.since (Protocol.wire_int8 v t.PatternType) <|
    Writes.all hv (Protocol.wire_structs v (AclDescription29.conforms hv) t.Acls) <|
    Writes.done

/-- There is nothing that may not be nil. -/
def DescribeAclsResource29.Full (_v : Int16) (_t : DescribeAclsResource29) : Prop := True

theorem DescribeAclsResource29.valid {v : Int16} (hv : 0 ≤ v) (t : DescribeAclsResource29) (h : t.Fits v) (_hf : t.Full v) :
    Protocol.DescribeAclsResource.Valid true v (DescribeAclsResource29.val t) :=
  Valids.all trivial <|
    Valids.all (valid_string (h.Name)) <|
    Valids.since (fun _ => trivial) <|
    Valids.all (valid_structs (fun y h hf => AclDescription29.valid hv y h hf) (h.Acls) (fun _ _ => trivial)) <|
    trivial

/-- What `DescribeAclsResource29` holds after reading the value `x` into `t0`. -/
def DescribeAclsResource29.of (v : Int16) (x : Val) (t0 : DescribeAclsResource29) : DescribeAclsResource29 :=
  { «Type» := (x.get "Type").toInt8,
    Name := (x.get "Name").toStr,
    PatternType := if v ≥ 1 then (x.get "PatternType").toInt8 else t0.PatternType,
    Acls := (x.get "Acls").toSliceOr (fun y => AclDescription29.of v y {}) t0.Acls }

theorem DescribeAclsResource29.decodes {v : Int16} (hv : 0 ≤ v) (x : Val) (h : Protocol.DescribeAclsResource.Valid false v x) (t0 : DescribeAclsResource29) :
    Reads (DescribeAclsResource29.decode v t0) (Protocol.DescribeAclsResource.wire false v x) (DescribeAclsResource29.of v x t0) :=
  Reads.congr (((Step.field (set := fun (t : DescribeAclsResource29) x => { t with «Type» := x }) (read_int8 (Fields.Valid.head (h) hv)))
      |>.andThen (Step.field (set := fun (t : DescribeAclsResource29) x => { t with Name := x }) (read_string (Fields.Valid.head (Fields.Valid.tail h) hv)))
      |>.andThen (Step.optField (c := v ≥ 1) (set := fun (t : DescribeAclsResource29) x => { t with PatternType := x }) (·.PatternType) (fun _ => rfl) fun hc => read_int8 (Fields.Valid.head (Fields.Valid.tail (Fields.Valid.tail h)) hc))
      |>.andThen (Step.readStructs (get := fun (t : DescribeAclsResource29) => t.Acls) (set := fun (t : DescribeAclsResource29) x => { t with Acls := x }) (fun y hy => AclDescription29.decodes hv y hy {}) (Fields.Valid.head (Fields.Valid.tail (Fields.Valid.tail (Fields.Valid.tail h))) hv)) : Step _ _ _) t0)
    (Writes.eq (fs := Protocol.DescribeAclsResource) (v := v) (x := x) <| Writes.all hv rfl <| Writes.all hv rfl <| Writes.since rfl <| Writes.all hv rfl <| Writes.done).symm rfl

theorem DescribeAclsResource29.parses {v : Int16} (hv : 0 ≤ v) (t0 : DescribeAclsResource29) :
    Parses (DescribeAclsResource29.decode v t0) ((Ty.struct Protocol.DescribeAclsResource).parse v) (fun x => DescribeAclsResource29.of v x t0) :=
  FParses.parses (fs := Protocol.DescribeAclsResource)
    (FParses.field hv (set := fun (t : DescribeAclsResource29) x => { t with «Type» := x }) par_int8 <|
    FParses.field hv (set := fun (t : DescribeAclsResource29) x => { t with Name := x }) par_string <|
    FParses.optField (c := v ≥ 1) Iff.rfl (set := fun (t : DescribeAclsResource29) x => { t with PatternType := x }) (·.PatternType) (fun _ => rfl) par_int8 <|
    FParses.structs hv (get := fun (t : DescribeAclsResource29) => t.Acls) (set := fun (t : DescribeAclsResource29) x => { t with Acls := x }) (AclDescription29.parses hv {}) <|
    FParses.done)
    (by simp only [DescribeAclsResource29.decode, Dec.andThen_assoc, Dec.andThen_nop]) (Fields.distinct_nodup _ (by decide +kernel)) (fun _ _ => rfl) t0

theorem DescribeAclsResource29.shown {v : Int16} (hv : 0 ≤ v) (x : Val) (h : Protocol.DescribeAclsResource.Typed v x) :
    Protocol.DescribeAclsResource.shows v x (DescribeAclsResource29.val (DescribeAclsResource29.of v x {})) = true :=
  Shows.all hv (show_int8 (Fields.Typed.head (h) hv)) <|
    Shows.all hv (show_string (Fields.Typed.head (Fields.Typed.tail h) hv)) <|
    Shows.since (.int8) rfl (fun hc => show_int8 (Fields.Typed.head (Fields.Typed.tail (Fields.Typed.tail h)) hc)) rfl <|
    Shows.all hv (show_structs (f := AclDescription29.val) (g := fun y => AclDescription29.of v y {}) (fun y hy => AclDescription29.shown hv y hy) (Fields.Typed.head (Fields.Typed.tail (Fields.Typed.tail (Fields.Typed.tail h))) hv)) <|
    rfl

/-- `DescribeAclsResponse` as a value of the protocol. -/
def DescribeAclsResponse.val (t : DescribeAclsResponse) : Val :=
  .struct [("ThrottleTimeMs", .int32 t.ThrottleTimeMs),
    ("ErrorCode", .int16 t.ErrorCode),
    ("ErrorMessage", .str (some t.ErrorMessage)),
    ("Resources", ofStructs DescribeAclsResource29.val t.Resources)]

theorem DescribeAclsResponse.conforms {v : Int16} (hv : 0 ≤ v) (t : DescribeAclsResponse) :
    Protocol.DescribeAclsResponse.wire false v (DescribeAclsResponse.val t) = DescribeAclsResponse.wire v t :=
  Writes.eq <|
    Writes.all hv (Protocol.wire_int32 v t.ThrottleTimeMs) <|
    Writes.all hv (Protocol.wire_int16 v t.ErrorCode) <|
    Writes.all hv (Protocol.wire_string v t.ErrorMessage) <|
    Writes.all hv (Protocol.wire_structs v (DescribeAclsResource29.conforms hv) t.Resources) <|
    Writes.done

/-- There is nothing that may not be nil. -/
def DescribeAclsResponse.Full (_v : Int16) (_t : DescribeAclsResponse) : Prop := True

theorem DescribeAclsResponse.valid {v : Int16} (hv : 0 ≤ v) (t : DescribeAclsResponse) (h : t.Fits v) (_hf : t.Full v) :
    Protocol.DescribeAclsResponse.Valid true v (DescribeAclsResponse.val t) :=
  Valids.all trivial <|
    Valids.all trivial <|
    Valids.all (valid_string (h.ErrorMessage)) <|
    Valids.all (valid_structs (fun y h hf => DescribeAclsResource29.valid hv y h hf) (h.Resources) (fun _ _ => trivial)) <|
    trivial

/-- What `DescribeAclsResponse` holds after reading the value `x` into `t0`. -/
def DescribeAclsResponse.of (v : Int16) (x : Val) (t0 : DescribeAclsResponse) : DescribeAclsResponse :=
  { ThrottleTimeMs := (x.get "ThrottleTimeMs").toInt32,
    ErrorCode := (x.get "ErrorCode").toInt16,
    ErrorMessage := (x.get "ErrorMessage").toStr,
    Resources := (x.get "Resources").toSliceOr (fun y => DescribeAclsResource29.of v y {}) t0.Resources }

theorem DescribeAclsResponse.decodes {v : Int16} (hv : 0 ≤ v) (x : Val) (h : Protocol.DescribeAclsResponse.Valid false v x) (t0 : DescribeAclsResponse) :
    Reads (DescribeAclsResponse.decode v t0) (Protocol.DescribeAclsResponse.wire false v x) (DescribeAclsResponse.of v x t0) :=
  Reads.congr (((Step.field (set := fun (t : DescribeAclsResponse) x => { t with ThrottleTimeMs := x }) (read_int32 (Fields.Valid.head (h) hv)))
      |>.andThen (Step.field (set := fun (t : DescribeAclsResponse) x => { t with ErrorCode := x }) (read_int16 (Fields.Valid.head (Fields.Valid.tail h) hv)))
      |>.andThen (Step.field (set := fun (t : DescribeAclsResponse) x => { t with ErrorMessage := x }) (read_string (Fields.Valid.head (Fields.Valid.tail (Fields.Valid.tail h)) hv)))
      |>.andThen (Step.readStructs (get := fun (t : DescribeAclsResponse) => t.Resources) (set := fun (t : DescribeAclsResponse) x => { t with Resources := x }) (fun y hy => DescribeAclsResource29.decodes hv y hy {}) (Fields.Valid.head (Fields.Valid.tail (Fields.Valid.tail (Fields.Valid.tail h))) hv)) : Step _ _ _) t0)
    (Writes.eq (fs := Protocol.DescribeAclsResponse) (v := v) (x := x) <| Writes.all hv rfl <| Writes.all hv rfl <| Writes.all hv rfl <| Writes.all hv rfl <| Writes.done).symm rfl

theorem DescribeAclsResponse.parses {v : Int16} (hv : 0 ≤ v) (t0 : DescribeAclsResponse) :
    Parses (DescribeAclsResponse.decode v t0) ((Ty.struct Protocol.DescribeAclsResponse).parse v) (fun x => DescribeAclsResponse.of v x t0) :=
  FParses.parses (fs := Protocol.DescribeAclsResponse)
    (FParses.field hv (set := fun (t : DescribeAclsResponse) x => { t with ThrottleTimeMs := x }) par_int32 <|
    FParses.field hv (set := fun (t : DescribeAclsResponse) x => { t with ErrorCode := x }) par_int16 <|
    FParses.field hv (set := fun (t : DescribeAclsResponse) x => { t with ErrorMessage := x }) par_string <|
    FParses.structs hv (get := fun (t : DescribeAclsResponse) => t.Resources) (set := fun (t : DescribeAclsResponse) x => { t with Resources := x }) (DescribeAclsResource29.parses hv {}) <|
    FParses.done)
    (by simp only [DescribeAclsResponse.decode, Dec.andThen_assoc, Dec.andThen_nop]) (Fields.distinct_nodup _ (by decide +kernel)) (fun _ _ => rfl) t0

theorem DescribeAclsResponse.shown {v : Int16} (hv : 0 ≤ v) (x : Val) (h : Protocol.DescribeAclsResponse.Typed v x) :
    Protocol.DescribeAclsResponse.shows v x (DescribeAclsResponse.val (DescribeAclsResponse.of v x {})) = true :=
  Shows.all hv (show_int32 (Fields.Typed.head (h) hv)) <|
    Shows.all hv (show_int16 (Fields.Typed.head (Fields.Typed.tail h) hv)) <|
    Shows.all hv (show_string (Fields.Typed.head (Fields.Typed.tail (Fields.Typed.tail h)) hv)) <|
    Shows.all hv (show_structs (f := DescribeAclsResource29.val) (g := fun y => DescribeAclsResource29.of v y {}) (fun y hy => DescribeAclsResource29.shown hv y hy) (Fields.Typed.head (Fields.Typed.tail (Fields.Typed.tail (Fields.Typed.tail h))) hv)) <|
    rfl

end Kafka.Msg
