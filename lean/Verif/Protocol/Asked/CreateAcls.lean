import Verif.Protocol.Conform.CreateAcls
/-!
Generated by tools/gen_protocol.py: the CreateAcls request is read as the protocol says.
-/
namespace Kafka.Msg

open Protocol

/-- What `CreatableAcl30` holds after reading the value `x` into `t0`. -/
def CreatableAcl30.of (v : Int16) (x : Val) (t0 : CreatableAcl30) : CreatableAcl30 :=
  { ResourceType := (x.get "ResourceType").toInt8,
    ResourceName := (x.get "ResourceName").toStr,
    ResourcePatternType := if v ≥ 1 then (x.get "ResourcePatternType").toInt8 else t0.ResourcePatternType,
    Principal := (x.get "Principal").toStr,
    Host := (x.get "Host").toStr,
    Operation := (x.get "Operation").toInt8,
    PermissionType := (x.get "PermissionType").toInt8 }

theorem CreatableAcl30.decodes {v : Int16} (hv : 0 ≤ v) (x : Val) (h : Protocol.CreatableAcl.Valid false v x) (t0 : CreatableAcl30) :
    Reads (CreatableAcl30.decode v t0) (Protocol.CreatableAcl.wire false v x) (CreatableAcl30.of v x t0) :=
  Reads.congr (((Step.field (set := fun (t : CreatableAcl30) x => { t with ResourceType := x }) (read_int8 (Fields.Valid.head (h) hv)))
      |>.andThen (Step.field (set := fun (t : CreatableAcl30) x => { t with ResourceName := x }) (read_string (Fields.Valid.head (Fields.Valid.tail h) hv)))
      |>.andThen (Step.optField (c := v ≥ 1) (set := fun (t : CreatableAcl30) x => { t with ResourcePatternType := x }) (·.ResourcePatternType) (fun _ => rfl) fun hc => read_int8 (Fields.Valid.head (Fields.Valid.tail (Fields.Valid.tail h)) hc))
      |>.andThen (Step.field (set := fun (t : CreatableAcl30) x => { t with Principal := x }) (read_string (Fields.Valid.head (Fields.Valid.tail (Fields.Valid.tail (Fields.Valid.tail h))) hv)))
      |>.andThen (Step.field (set := fun (t : CreatableAcl30) x => { t with Host := x }) (read_string (Fields.Valid.head (Fields.Valid.tail (Fields.Valid.tail (Fields.Valid.tail (Fields.Valid.tail h)))) hv)))
      |>.andThen (Step.field (set := fun (t : CreatableAcl30) x => { t with Operation := x }) (read_int8 (Fields.Valid.head (Fields.Valid.tail (Fields.Valid.tail (Fields.Valid.tail (Fields.Valid.tail (Fields.Valid.tail h))))) hv)))
      |>.andThen (Step.field (set := fun (t : CreatableAcl30) x => { t with PermissionType := x }) (read_int8 (Fields.Valid.head (Fields.Valid.tail (Fields.Valid.tail (Fields.Valid.tail (Fields.Valid.tail (Fields.Valid.tail (Fields.Valid.tail h)))))) hv))) : Step _ _ _) t0)
    (Writes.eq (fs := Protocol.CreatableAcl) (v := v) (x := x) <| Writes.all hv rfl <| Writes.all hv rfl <| Writes.since rfl <| Writes.all hv rfl <| Writes.all hv rfl <| Writes.all hv rfl <| Writes.all hv rfl <| Writes.done).symm rfl

theorem CreatableAcl30.parses {v : Int16} (hv : 0 ≤ v) (t0 : CreatableAcl30) :
    Parses (CreatableAcl30.decode v t0) ((Ty.struct Protocol.CreatableAcl).parse v) (fun x => CreatableAcl30.of v x t0) :=
  FParses.parses (fs := Protocol.CreatableAcl)
    (FParses.field hv (set := fun (t : CreatableAcl30) x => { t with ResourceType := x }) par_int8 <|
    FParses.field hv (set := fun (t : CreatableAcl30) x => { t with ResourceName := x }) par_string <|
    FParses.optField (c := v ≥ 1) Iff.rfl (set := fun (t : CreatableAcl30) x => { t with ResourcePatternType := x }) (·.ResourcePatternType) (fun _ => rfl) par_int8 <|
    FParses.field hv (set := fun (t : CreatableAcl30) x => { t with Principal := x }) par_string <|
    FParses.field hv (set := fun (t : CreatableAcl30) x => { t with Host := x }) par_string <|
    FParses.field hv (set := fun (t : CreatableAcl30) x => { t with Operation := x }) par_int8 <|
    FParses.field hv (set := fun (t : CreatableAcl30) x => { t with PermissionType := x }) par_int8 <|
    FParses.done)
    (by simp only [CreatableAcl30.decode, Dec.andThen_assoc, Dec.andThen_nop]) (Fields.distinct_nodup _ (by decide +kernel)) (fun _ _ => rfl) t0

theorem CreatableAcl30.shown {v : Int16} (hv : 0 ≤ v) (x : Val) (h : Protocol.CreatableAcl.Typed v x) :
    Protocol.CreatableAcl.shows v x (CreatableAcl30.val (CreatableAcl30.of v x {})) = true :=
  Shows.all hv (show_int8 (Fields.Typed.head (h) hv)) <|
    Shows.all hv (show_string (Fields.Typed.head (Fields.Typed.tail h) hv)) <|
    Shows.since (.int8) rfl (fun hc => show_int8 (Fields.Typed.head (Fields.Typed.tail (Fields.Typed.tail h)) hc)) rfl <|
    Shows.all hv (show_string (Fields.Typed.head (Fields.Typed.tail (Fields.Typed.tail (Fields.Typed.tail h))) hv)) <|
    Shows.all hv (show_string (Fields.Typed.head (Fields.Typed.tail (Fields.Typed.tail (Fields.Typed.tail (Fields.Typed.tail h)))) hv)) <|
    Shows.all hv (show_int8 (Fields.Typed.head (Fields.Typed.tail (Fields.Typed.tail (Fields.Typed.tail (Fields.Typed.tail (Fields.Typed.tail h))))) hv)) <|
    Shows.all hv (show_int8 (Fields.Typed.head (Fields.Typed.tail (Fields.Typed.tail (Fields.Typed.tail (Fields.Typed.tail (Fields.Typed.tail (Fields.Typed.tail h)))))) hv)) <|
    rfl

/-- What `CreateAclsRequest` holds after reading the value `x` into `t0`. -/
def CreateAclsRequest.of (v : Int16) (x : Val) (t0 : CreateAclsRequest) : CreateAclsRequest :=
  { Creations := (x.get "Creations").toSliceOr (fun y => CreatableAcl30.of v y {}) t0.Creations }

theorem CreateAclsRequest.decodes {v : Int16} (hv : 0 ≤ v) (x : Val) (h : Protocol.CreateAclsRequest.Valid false v x) (t0 : CreateAclsRequest) :
    Reads (CreateAclsRequest.decode v t0) (Protocol.CreateAclsRequest.wire false v x) (CreateAclsRequest.of v x t0) :=
  Reads.congr (((Step.readStructs (get := fun (t : CreateAclsRequest) => t.Creations) (set := fun (t : CreateAclsRequest) x => { t with Creations := x }) (fun y hy => CreatableAcl30.decodes hv y hy {}) (Fields.Valid.head (h) hv)) : Step _ _ _) t0)
    (Writes.eq (fs := Protocol.CreateAclsRequest) (v := v) (x := x) <| Writes.all hv rfl <| Writes.done).symm rfl

theorem CreateAclsRequest.parses {v : Int16} (hv : 0 ≤ v) (t0 : CreateAclsRequest) :
    Parses (CreateAclsRequest.decode v t0) ((Ty.struct Protocol.CreateAclsRequest).parse v) (fun x => CreateAclsRequest.of v x t0) :=
  FParses.parses (fs := Protocol.CreateAclsRequest)
    (FParses.structs hv (get := fun (t : CreateAclsRequest) => t.Creations) (set := fun (t : CreateAclsRequest) x => { t with Creations := x }) (CreatableAcl30.parses hv {}) <|
    FParses.done)
    (by simp only [CreateAclsRequest.decode, Dec.andThen_nop]) (Fields.distinct_nodup _ (by decide +kernel)) (fun _ _ => rfl) t0

theorem CreateAclsRequest.shown {v : Int16} (hv : 0 ≤ v) (x : Val) (h : Protocol.CreateAclsRequest.Typed v x) :
    Protocol.CreateAclsRequest.shows v x (CreateAclsRequest.val (CreateAclsRequest.of v x {})) = true :=
  Shows.all hv (show_structs (f := CreatableAcl30.val) (g := fun y => CreatableAcl30.of v y {}) (fun y hy => CreatableAcl30.shown hv y hy) (Fields.Typed.head (h) hv)) <|
    rfl

end Kafka.Msg
