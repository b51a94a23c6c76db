import Verif.Protocol.ParseLemmas
import Verif.Gen.Spec.CreateAcls
/-!
Generated by tools/gen_protocol.py: the CreateAcls messages are written and read as the protocol says.
-/
namespace Kafka.Msg

open Protocol

/-- `CreatableAcl30` as a value of the protocol. -/
def CreatableAcl30.val (t : CreatableAcl30) : Val :=
  .struct [("ResourceType", .int8 t.ResourceType),
    ("ResourceName", .str (some t.ResourceName)),
    ("ResourcePatternType", .int8 t.ResourcePatternType),
    ("Principal", .str (some t.Principal)),
    ("Host", .str (some t.Host)),
    ("Operation", .int8 t.Operation),
    ("PermissionType", .int8 t.PermissionType)]

theorem CreatableAcl30.conforms {v : Int16} (hv : 0 ≤ v) (t : CreatableAcl30) :
    Protocol.CreatableAcl.wire false v (CreatableAcl30.val t) = CreatableAcl30.wire v t :=
  Writes.eq <|
    Writes.all hv (Protocol.wire_int8 v t.ResourceType) <|
    Writes.all hv (Protocol.wire_string v t.ResourceName) <|
    Writes.since (Protocol.wire_int8 v t.ResourcePatternType) <|
    Writes.all hv (Protocol.wire_string v t.Principal) <|
    Writes.all hv (Protocol.wire_string v t.Host) <|
    Writes.all hv (Protocol.wire_int8 v t.Operation) <|
    Writes.all hv (Protocol.wire_int8 v t.PermissionType) <|
    Writes.done

/-- There is nothing that may not be nil. -/
def CreatableAcl30.Full (_v : Int16) (_t : CreatableAcl30) : Prop := True

theorem CreatableAcl30.valid {v : Int16} (_hv : 0 ≤ v) (t : CreatableAcl30) (h : t.Fits v) (_hf : t.Full v) :
    Protocol.CreatableAcl.Valid true v (CreatableAcl30.val t) :=
  Valids.all trivial <|
    Valids.all (valid_string (h.ResourceName)) <|
    Valids.since (fun _ => trivial) <|
    Valids.all (valid_string (h.Principal)) <|
    Valids.all (valid_string (h.Host)) <|
    Valids.all trivial <|
    Valids.all trivial <|
    trivial

/-- `CreateAclsRequest` as a value of the protocol. -/
def CreateAclsRequest.val (t : CreateAclsRequest) : Val :=
  .struct [("Creations", ofStructs CreatableAcl30.val t.Creations)]

theorem CreateAclsRequest.conforms {v : Int16} (hv : 0 ≤ v) (t : CreateAclsRequest) :
    Protocol.CreateAclsRequest.wire false v (CreateAclsRequest.val t) = CreateAclsRequest.wire v t :=
  Writes.eq <|
    Writes.all hv (Protocol.wire_structs v (CreatableAcl30.conforms hv) t.Creations) <|
    Writes.done

/-- There is nothing that may not be nil. -/
def CreateAclsRequest.Full (_v : Int16) (_t : CreateAclsRequest) : Prop := True

theorem CreateAclsRequest.valid {v : Int16} (hv : 0 ≤ v) (t : CreateAclsRequest) (h : t.Fits v) (_hf : t.Full v) :
    Protocol.CreateAclsRequest.Valid true v (CreateAclsRequest.val t) :=
  Valids.all (valid_structs (fun y h hf => CreatableAcl30.valid hv y h hf) (h.Creations) (fun _ _ => trivial)) <|
    trivial

/-- `CreatableAclResult30` as a value of the protocol. -/
def CreatableAclResult30.val (t : CreatableAclResult30) : Val :=
  .struct [("ErrorCode", .int16 t.ErrorCode),
    ("ErrorMessage", .str (some t.ErrorMessage))]

theorem CreatableAclResult30.conforms {v : Int16} (hv : 0 ≤ v) (t : CreatableAclResult30) :
    Protocol.CreatableAclResult.wire false v (CreatableAclResult30.val t) = CreatableAclResult30.wire v t :=
  Writes.eq <|
    Writes.all hv (Protocol.wire_int16 v t.ErrorCode) <|
    Writes.all hv (Protocol.wire_string v t.ErrorMessage) <|
    Writes.done

/-- There is nothing that may not be nil. -/
def CreatableAclResult30.Full (_v : Int16) (_t : CreatableAclResult30) : Prop := True

theorem CreatableAclResult30.valid {v : Int16} (_hv : 0 ≤ v) (t : CreatableAclResult30) (h : t.Fits v) (_hf : t.Full v) :
    Protocol.CreatableAclResult.Valid true v (CreatableAclResult30.val t) :=
  Valids.all trivial <|
    Valids.all (valid_string (h.ErrorMessage)) <|
    trivial

/-- What `CreatableAclResult30` holds after reading the value `x` into `t0`. -/
def CreatableAclResult30.of (_v : Int16) (x : Val) (_t0 : CreatableAclResult30) : CreatableAclResult30 :=
  { ErrorCode := (x.get "ErrorCode").toInt16,
    ErrorMessage := (x.get "ErrorMessage").toStr }

theorem CreatableAclResult30.decodes {v : Int16} (hv : 0 ≤ v) (x : Val) (h : Protocol.CreatableAclResult.Valid false v x) (t0 : CreatableAclResult30) :
    Reads (CreatableAclResult30.decode v t0) (Protocol.CreatableAclResult.wire false v x) (CreatableAclResult30.of v x t0) :=
  Reads.congr (((Step.field (set := fun (t : CreatableAclResult30) x => { t with ErrorCode := x }) (read_int16 (Fields.Valid.head (h) hv)))
      |>.andThen (Step.field (set := fun (t : CreatableAclResult30) x => { t with ErrorMessage := x }) (read_string (Fields.Valid.head (Fields.Valid.tail h) hv))) : Step _ _ _) t0)
    (Writes.eq (fs := Protocol.CreatableAclResult) (v := v) (x := x) <| Writes.all hv rfl <| Writes.all hv rfl <| Writes.done).symm rfl

theorem CreatableAclResult30.parses {v : Int16} (hv : 0 ≤ v) (t0 : CreatableAclResult30) :
    Parses (CreatableAclResult30.decode v t0) ((Ty.struct Protocol.CreatableAclResult).parse v) (fun x => CreatableAclResult30.of v x t0) :=
  FParses.parses (fs := Protocol.CreatableAclResult)
    (FParses.field hv (set := fun (t : CreatableAclResult30) x => { t with ErrorCode := x }) par_int16 <|
    FParses.field hv (set := fun (t : CreatableAclResult30) x => { t with ErrorMessage := x }) par_string <|
    FParses.done)
    (by simp only [CreatableAclResult30.decode, Dec.andThen_nop]) (Fields.distinct_nodup _ (by decide +kernel)) (fun _ _ => rfl) t0

theorem CreatableAclResult30.shown {v : Int16} (hv : 0 ≤ v) (x : Val) (h : Protocol.CreatableAclResult.Typed v x) :
    Protocol.CreatableAclResult.shows v x (CreatableAclResult30.val (CreatableAclResult30.of v x {})) = true :=
  Shows.all hv (show_int16 (Fields.Typed.head (h) hv)) <|
    Shows.all hv (show_string (Fields.Typed.head (Fields.Typed.tail h) hv)) <|
    rfl

/-- `CreateAclsResponse` as a value of the protocol. -/
def CreateAclsResponse.val (t : CreateAclsResponse) : Val :=
  .struct [("ThrottleTimeMs", .int32 t.ThrottleTimeMs),
    ("Results", ofStructs CreatableAclResult30.val t.Results)]

theorem CreateAclsResponse.conforms {v : Int16} (hv : 0 ≤ v) (t : CreateAclsResponse) :
    Protocol.CreateAclsResponse.wire false v (CreateAclsResponse.val t) = CreateAclsResponse.wire v t :=
  Writes.eq <|
    Writes.all hv (Protocol.wire_int32 v t.ThrottleTimeMs) <|
    Writes.all hv (Protocol.wire_structs v (CreatableAclResult30.conforms hv) t.Results) <|
    Writes.done

/-- There is nothing that may not be nil. -/
def CreateAclsResponse.Full (_v : Int16) (_t : CreateAclsResponse) : Prop := True

theorem CreateAclsResponse.valid {v : Int16} (hv : 0 ≤ v) (t : CreateAclsResponse) (h : t.Fits v) (_hf : t.Full v) :
    Protocol.CreateAclsResponse.Valid true v (CreateAclsResponse.val t) :=
  Valids.all trivial <|
    Valids.all (valid_structs (fun y h hf => CreatableAclResult30.valid hv y h hf) (h.Results) (fun _ _ => trivial)) <|
    trivial

/-- What `CreateAclsResponse` holds after reading the value `x` into `t0`. -/
def CreateAclsResponse.of (v : Int16) (x : Val) (t0 : CreateAclsResponse) : CreateAclsResponse :=
  { ThrottleTimeMs := (x.get "ThrottleTimeMs").toInt32,
    Results := (x.get "Results").toSliceOr (fun y => CreatableAclResult30.of v y {}) t0.Results }

theorem CreateAclsResponse.decodes {v : Int16} (hv : 0 ≤ v) (x : Val) (h : Protocol.CreateAclsResponse.Valid false v x) (t0 : CreateAclsResponse) :
    Reads (CreateAclsResponse.decode v t0) (Protocol.CreateAclsResponse.wire false v x) (CreateAclsResponse.of v x t0) :=
  Reads.congr (((Step.field (set := fun (t : CreateAclsResponse) x => { t with ThrottleTimeMs := x }) (read_int32 (Fields.Valid.head (h) hv)))
      |>.andThen (Step.readStructs (get := fun (t : CreateAclsResponse) => t.Results) (set := fun (t : CreateAclsResponse) x => { t with Results := x }) (fun y hy => CreatableAclResult30.decodes hv y hy {}) (Fields.Valid.head (Fields.Valid.tail h) hv)) : Step _ _ _) t0)
    (Writes.eq (fs := Protocol.CreateAclsResponse) (v := v) (x := x) <| Writes.all hv rfl <| Writes.all hv rfl <| Writes.done).symm rfl

theorem CreateAclsResponse.parses {v : Int16} (hv : 0 ≤ v) (t0 : CreateAclsResponse) :
    Parses (CreateAclsResponse.decode v t0) ((Ty.struct Protocol.CreateAclsResponse).parse v) (fun x => CreateAclsResponse.of v x t0) :=
  FParses.parses (fs := Protocol.CreateAclsResponse)
    (FParses.field hv (set := fun (t : CreateAclsResponse) x => { t with ThrottleTimeMs := x }) par_int32 <|
    FParses.structs hv (get := fun (t : CreateAclsResponse) => t.Results) (set := fun (t : CreateAclsResponse) x => { t with Results := x }) (CreatableAclResult30.parses hv {}) <|
    FParses.done)
    (by simp only [CreateAclsResponse.decode, Dec.andThen_nop]) (Fields.distinct_nodup _ (by decide +kernel)) (fun _ _ => rfl) t0

theorem CreateAclsResponse.shown {v : Int16} (hv : 0 ≤ v) (x : Val) (h : Protocol.CreateAclsResponse.Typed v x) :
    Protocol.CreateAclsResponse.shows v x (CreateAclsResponse.val (CreateAclsResponse.of v x {})) = true :=
  Shows.all hv (show_int32 (Fields.Typed.head (h) hv)) <|
    Shows.all hv (show_structs (f := CreatableAclResult30.val) (g := fun y => CreatableAclResult30.of v y {}) (fun y hy => CreatableAclResult30.shown hv y hy) (Fields.Typed.head (Fields.Typed.tail h) hv)) <|
    rfl

end Kafka.Msg
