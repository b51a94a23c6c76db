import Verif.Protocol.Conform.DeleteAcls
/-!
Generated by tools/gen_protocol.py: the DeleteAcls request is read as the protocol says.
-/
namespace Kafka.Msg

open Protocol

/-- What `DeleteAclsFilter31` holds after reading the value `x` into `t0`. -/
def DeleteAclsFilter31.of (v : Int16) (x : Val) (t0 : DeleteAclsFilter31) : DeleteAclsFilter31 :=
  { ResourceTypeFilter := (x.get "ResourceTypeFilter").toInt8,
    ResourceNameFilter := (x.get "ResourceNameFilter").toStr,
    PatternTypeFilter := if v ≥ 1 then (x.get "PatternTypeFilter").toInt8 else t0.PatternTypeFilter,
    PrincipalFilter := (x.get "PrincipalFilter").toStr,
    HostFilter := (x.get "HostFilter").toStr,
    Operation := (x.get "Operation").toInt8,
    PermissionType := (x.get "PermissionType").toInt8 }

theorem DeleteAclsFilter31.decodes {v : Int16} (hv : 0 ≤ v) (x : Val) (h : Protocol.DeleteAclsFilter.Valid false v x) (t0 : DeleteAclsFilter31) :
    Reads (DeleteAclsFilter31.decode v t0) (Protocol.DeleteAclsFilter.wire false v x) (DeleteAclsFilter31.of v x t0) :=
  Reads.congr (((Step.field (set := fun (t : DeleteAclsFilter31) x => { t with ResourceTypeFilter := x }) (read_int8 (Fields.Valid.head (h) hv)))
      |>.andThen (Step.field (set := fun (t : DeleteAclsFilter31) x => { t with ResourceNameFilter := x }) (read_string (Fields.Valid.head (Fields.Valid.tail h) hv)))
      |>.andThen (Step.optField (c := v ≥ 1) (set := fun (t : DeleteAclsFilter31) x => { t with PatternTypeFilter := x }) (·.PatternTypeFilter) (fun _ => rfl) fun hc => read_int8 (Fields.Valid.head (Fields.Valid.tail (Fields.Valid.tail h)) hc))
      |>.andThen (Step.field (set := fun (t : DeleteAclsFilter31) x => { t with PrincipalFilter := x }) (read_string (Fields.Valid.head (Fields.Valid.tail (Fields.Valid.tail (Fields.Valid.tail h))) hv)))
      |>.andThen (Step.field (set := fun (t : DeleteAclsFilter31) x => { t with HostFilter := x }) (read_string (Fields.Valid.head (Fields.Valid.tail (Fields.Valid.tail (Fields.Valid.tail (Fields.Valid.tail h)))) hv)))
      |>.andThen (Step.field (set := fun (t : DeleteAclsFilter31) x => { t with Operation := x }) (read_int8 (Fields.Valid.head (Fields.Valid.tail (Fields.Valid.tail (Fields.Valid.tail (Fields.Valid.tail (Fields.Valid.tail h))))) hv)))
      |>.andThen (Step.field (set := fun (t : DeleteAclsFilter31) x => { t with PermissionType := x }) (read_int8 (Fields.Valid.head (Fields.Valid.tail (Fields.Valid.tail (Fields.Valid.tail (Fields.Valid.tail (Fields.Valid.tail (Fields.Valid.tail h)))))) hv))) : Step _ _ _) t0)
    (Writes.eq (fs := Protocol.DeleteAclsFilter) (v := v) (x := x) <| Writes.all hv rfl <| Writes.all hv rfl <| Writes.since rfl <| Writes.all hv rfl <| Writes.all hv rfl <| Writes.all hv rfl <| Writes.all hv rfl <| Writes.done).symm rfl

theorem DeleteAclsFilter31.parses {v : Int16} (hv : 0 ≤ v) (t0 : DeleteAclsFilter31) :
    Parses (DeleteAclsFilter31.decode v t0) ((Ty.struct Protocol.DeleteAclsFilter).parse v) (fun x => DeleteAclsFilter31.of v x t0) :=
  FParses.parses (fs := Protocol.DeleteAclsFilter)
    (FParses.field hv (set := fun (t : DeleteAclsFilter31) x => { t with ResourceTypeFilter := x }) par_int8 <|
    FParses.field hv (set := fun (t : DeleteAclsFilter31) x => { t with ResourceNameFilter := x }) par_string <|
    FParses.optField (c := v ≥ 1) Iff.rfl (set := fun (t : DeleteAclsFilter31) x => { t with PatternTypeFilter := x }) (·.PatternTypeFilter) (fun _ => rfl) par_int8 <|
    FParses.field hv (set := fun (t : DeleteAclsFilter31) x => { t with PrincipalFilter := x }) par_string <|
    FParses.field hv (set := fun (t : DeleteAclsFilter31) x => { t with HostFilter := x }) par_string <|
    FParses.field hv (set := fun (t : DeleteAclsFilter31) x => { t with Operation := x }) par_int8 <|
    FParses.field hv (set := fun (t : DeleteAclsFilter31) x => { t with PermissionType := x }) par_int8 <|
    FParses.done)
    (by simp only [DeleteAclsFilter31.decode, Dec.andThen_assoc, Dec.andThen_nop]) (Fields.distinct_nodup _ (by decide +kernel)) (fun _ _ => rfl) t0

theorem DeleteAclsFilter31.shown {v : Int16} (hv : 0 ≤ v) (x : Val) (h : Protocol.DeleteAclsFilter.Typed v x) :
    Protocol.DeleteAclsFilter.shows v x (DeleteAclsFilter31.val (DeleteAclsFilter31.of v x {})) = true :=
  Shows.all hv (show_int8 (Fields.Typed.head (h) hv)) <|
    Shows.all hv (show_string (Fields.Typed.head (Fields.Typed.tail h) hv)) <|
    Shows.since (.int8) rfl (fun hc => show_int8 (Fields.Typed.head (Fields.Typed.tail (Fields.Typed.tail h)) hc)) rfl <|
    Shows.all hv (show_string (Fields.Typed.head (Fields.Typed.tail (Fields.Typed.tail (Fields.Typed.tail h))) hv)) <|
    Shows.all hv (show_string (Fields.Typed.head (Fields.Typed.tail (Fields.Typed.tail (Fields.Typed.tail (Fields.Typed.tail h)))) hv)) <|
    Shows.all hv (show_int8 (Fields.Typed.head (Fields.Typed.tail (Fields.Typed.tail (Fields.Typed.tail (Fields.Typed.tail (Fields.Typed.tail h))))) hv)) <|
    Shows.all hv (show_int8 (Fields.Typed.head (Fields.Typed.tail (Fields.Typed.tail (Fields.Typed.tail (Fields.Typed.tail (Fields.Typed.tail (Fields.Typed.tail h)))))) hv)) <|
    rfl

/-- What `DeleteAclsRequest` holds after reading the value `x` into `t0`. -/
def DeleteAclsRequest.of (v : Int16) (x : Val) (t0 : DeleteAclsRequest) : DeleteAclsRequest :=
  { Filters := (x.get "Filters").toSliceOr (fun y => DeleteAclsFilter31.of v y {}) t0.Filters }

theorem DeleteAclsRequest.decodes {v : Int16} (hv : 0 ≤ v) (x : Val) (h : Protocol.DeleteAclsRequest.Valid false v x) (t0 : DeleteAclsRequest) :
    Reads (DeleteAclsRequest.decode v t0) (Protocol.DeleteAclsRequest.wire false v x) (DeleteAclsRequest.of v x t0) :=
  Reads.congr (((Step.readStructs (get := fun (t : DeleteAclsRequest) => t.Filters) (set := fun (t : DeleteAclsRequest) x => { t with Filters := x }) (fun y hy => DeleteAclsFilter31.decodes hv y hy {}) (Fields.Valid.head (h) hv)) : Step _ _ _) t0)
    (Writes.eq (fs := Protocol.DeleteAclsRequest) (v := v) (x := x) <| Writes.all hv rfl <| Writes.done).symm rfl

theorem DeleteAclsRequest.parses {v : Int16} (hv : 0 ≤ v) (t0 : DeleteAclsRequest) :
    Parses (DeleteAclsRequest.decode v t0) ((Ty.struct Protocol.DeleteAclsRequest).parse v) (fun x => DeleteAclsRequest.of v x t0) :=
  FParses.parses (fs := Protocol.DeleteAclsRequest)
    (FParses.structs hv (get := fun (t : DeleteAclsRequest) => t.Filters) (set := fun (t : DeleteAclsRequest) x => { t with Filters := x }) (DeleteAclsFilter31.parses hv {}) <|
    FParses.done)
    (by simp only [DeleteAclsRequest.decode, Dec.andThen_nop]) (Fields.distinct_nodup _ (by decide +kernel)) (fun _ _ => rfl) t0

theorem DeleteAclsRequest.shown {v : Int16} (hv : 0 ≤ v) (x : Val) (h : Protocol.DeleteAclsRequest.Typed v x) :
    Protocol.DeleteAclsRequest.shows v x (DeleteAclsRequest.val (DeleteAclsRequest.of v x {})) = true :=
  Shows.all hv (show_structs (f := DeleteAclsFilter31.val) (g := fun y => DeleteAclsFilter31.of v y {}) (fun y hy => DeleteAclsFilter31.shown hv y hy) (Fields.Typed.head (h) hv)) <|
    rfl

end Kafka.Msg
