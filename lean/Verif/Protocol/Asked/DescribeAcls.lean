import Verif.Protocol.Conform.DescribeAcls
/-!
Generated by tools/gen_protocol.py: the DescribeAcls request is read as the protocol says.
-/
namespace Kafka.Msg

open Protocol

/-- What `DescribeAclsRequest` holds after reading the value `x` into `t0`. -/
def DescribeAclsRequest.of (v : Int16) (x : Val) (t0 : DescribeAclsRequest) : DescribeAclsRequest :=
  { ResourceType := (x.get "ResourceType").toInt8,
    ResourceNameFilter := (x.get "ResourceNameFilter").toStr,
    ResourcePatternType := if v ≥ 1 then (x.get "ResourcePatternType").toInt8 else t0.ResourcePatternType,
    PrincipalFilter := (x.get "PrincipalFilter").toStr,
    HostFilter := (x.get "HostFilter").toStr,
    Operation := (x.get "Operation").toInt8,
    PermissionType := (x.get "PermissionType").toInt8 }

theorem DescribeAclsRequest.decodes {v : Int16} (hv : 0 ≤ v) (x : Val) (h : Protocol.DescribeAclsRequest.Valid false v x) (t0 : DescribeAclsRequest) :
    Reads (DescribeAclsRequest.decode v t0) (Protocol.DescribeAclsRequest.wire false v x) (DescribeAclsRequest.of v x t0) :=
  Reads.congr (((Step.field (set := fun (t : DescribeAclsRequest) x => { t with ResourceType := x }) (read_int8 (Fields.Valid.head (h) hv)))
      |>.andThen (Step.field (set := fun (t : DescribeAclsRequest) x => { t with ResourceNameFilter := x }) (read_string (Fields.Valid.head (Fields.Valid.tail h) hv)))
      |>.andThen (Step.optField (c := v ≥ 1) (set := fun (t : DescribeAclsRequest) x => { t with ResourcePatternType := x }) (·.ResourcePatternType) (fun _ => rfl) fun hc => read_int8 (Fields.Valid.head (Fields.Valid.tail (Fields.Valid.tail h)) hc))
      |>.andThen (Step.field (set := fun (t : DescribeAclsRequest) x => { t with PrincipalFilter := x }) (read_string (Fields.Valid.head (Fields.Valid.tail (Fields.Valid.tail (Fields.Valid.tail h))) hv)))
      |>.andThen (Step.field (set := fun (t : DescribeAclsRequest) x => { t with HostFilter := x }) (read_string (Fields.Valid.head (Fields.Valid.tail (Fields.Valid.tail (Fields.Valid.tail (Fields.Valid.tail h)))) hv)))
      |>.andThen (Step.field (set := fun (t : DescribeAclsRequest) x => { t with Operation := x }) (read_int8 (Fields.Valid.head (Fields.Valid.tail (Fields.Valid.tail (Fields.Valid.tail (Fields.Valid.tail (Fields.Valid.tail h))))) hv)))
      |>.andThen (Step.field (set := fun (t : DescribeAclsRequest) x => { t with PermissionType := x }) (read_int8 (Fields.Valid.head (Fields.Valid.tail (Fields.Valid.tail (Fields.Valid.tail (Fields.Valid.tail (Fields.Valid.tail (Fields.Valid.tail h)))))) hv))) : Step _ _ _) t0)
    (Writes.eq (fs := Protocol.DescribeAclsRequest) (v := v) (x := x) <| Writes.all hv rfl <| Writes.all hv rfl <| Writes.since rfl <| Writes.all hv rfl <| Writes.all hv rfl <| Writes.all hv rfl <| Writes.all hv rfl <| Writes.done).symm rfl

theorem DescribeAclsRequest.parses {v : Int16} (hv : 0 ≤ v) (t0 : DescribeAclsRequest) :
    Parses (DescribeAclsRequest.decode v t0) ((Ty.struct Protocol.DescribeAclsRequest).parse v) (fun x => DescribeAclsRequest.of v x t0) :=
  FParses.parses (fs := Protocol.DescribeAclsRequest)
    (FParses.field hv (set := fun (t : DescribeAclsRequest) x => { t with ResourceType := x }) par_int8 <|
    FParses.field hv (set := fun (t : DescribeAclsRequest) x => { t with ResourceNameFilter := x }) par_string <|
    FParses.optField (c := v ≥ 1) Iff.rfl (set := fun (t : DescribeAclsRequest) x => { t with ResourcePatternType := x }) (·.ResourcePatternType) (fun _ => rfl) par_int8 <|
    FParses.field hv (set := fun (t : DescribeAclsRequest) x => { t with PrincipalFilter := x }) par_string <|
    FParses.field hv (set := fun (t : DescribeAclsRequest) x => { t with HostFilter := x }) par_string <|
    FParses.field hv (set := fun (t : DescribeAclsRequest) x => { t with Operation := x }) par_int8 <|
    FParses.field hv (set := fun (t : DescribeAclsRequest) x => { t with PermissionType := x }) par_int8 <|
    FParses.done)
    (by simp only [DescribeAclsRequest.decode, Dec.andThen_assoc, Dec.andThen_nop]) (Fields.distinct_nodup _ (by decide +kernel)) (fun _ _ => rfl) t0

theorem DescribeAclsRequest.shown {v : Int16} (hv : 0 ≤ v) (x : Val) (h : Protocol.DescribeAclsRequest.Typed v x) :
    Protocol.DescribeAclsRequest.shows v x (DescribeAclsRequest.val (DescribeAclsRequest.of v x {})) = true :=
  Shows.all hv (show_int8 (Fields.Typed.head (h) hv)) <|
    Shows.all hv (show_string (Fields.Typed.head (Fields.Typed.tail h) hv)) <|
    Shows.since (.int8) rfl (fun hc => show_int8 (Fields.Typed.head (Fields.Typed.tail (Fields.Typed.tail h)) hc)) rfl <|
    Shows.all hv (show_string (Fields.Typed.head (Fields.Typed.tail (Fields.Typed.tail (Fields.Typed.tail h))) hv)) <|
    Shows.all hv (show_string (Fields.Typed.head (Fields.Typed.tail (Fields.Typed.tail (Fields.Typed.tail (Fields.Typed.tail h)))) hv)) <|
    Shows.all hv (show_int8 (Fields.Typed.head (Fields.Typed.tail (Fields.Typed.tail (Fields.Typed.tail (Fields.Typed.tail (Fields.Typed.tail h))))) hv)) <|
    Shows.all hv (show_int8 (Fields.Typed.head (Fields.Typed.tail (Fields.Typed.tail (Fields.Typed.tail (Fields.Typed.tail (Fields.Typed.tail (Fields.Typed.tail h)))))) hv)) <|
    rfl

end Kafka.Msg
