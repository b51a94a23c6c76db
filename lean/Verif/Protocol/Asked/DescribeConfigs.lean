import Verif.Protocol.Conform.DescribeConfigs
/-!
Generated by tools/gen_protocol.py: the DescribeConfigs request is read as the protocol says.
-/
namespace Kafka.Msg

open Protocol

/-- What `DescribeConfigsResource32` holds after reading the value `x` into `t0`. -/
def DescribeConfigsResource32.of (_v : Int16) (x : Val) (_t0 : DescribeConfigsResource32) : DescribeConfigsResource32 :=
  { ResourceType := (x.get "ResourceType").toInt8,
    ResourceName := (x.get "ResourceName").toStr,
    ConfigurationKeys := (x.get "ConfigurationKeys").toSlice Val.toStr }

theorem DescribeConfigsResource32.decodes {v : Int16} (hv : 0 ≤ v) (x : Val) (h : Protocol.DescribeConfigsResource.Valid false v x) (t0 : DescribeConfigsResource32) :
    Reads (DescribeConfigsResource32.decode v t0) (Protocol.DescribeConfigsResource.wire false v x) (DescribeConfigsResource32.of v x t0) :=
  Reads.congr (((Step.field (set := fun (t : DescribeConfigsResource32) x => { t with ResourceType := x }) (read_int8 (Fields.Valid.head (h) hv)))
      |>.andThen (Step.field (set := fun (t : DescribeConfigsResource32) x => { t with ResourceName := x }) (read_string (Fields.Valid.head (Fields.Valid.tail h) hv)))
      |>.andThen (Step.field (set := fun (t : DescribeConfigsResource32) x => { t with ConfigurationKeys := x }) (read_stringArray (Fields.Valid.head (Fields.Valid.tail (Fields.Valid.tail h)) hv))) : Step _ _ _) t0)
    (Writes.eq (fs := Protocol.DescribeConfigsResource) (v := v) (x := x) <| Writes.all hv rfl <| Writes.all hv rfl <| Writes.all hv rfl <| Writes.done).symm rfl

theorem DescribeConfigsResource32.parses {v : Int16} (hv : 0 ≤ v) (t0 : DescribeConfigsResource32) :
    Parses (DescribeConfigsResource32.decode v t0) ((Ty.struct Protocol.DescribeConfigsResource).parse v) (fun x => DescribeConfigsResource32.of v x t0) :=
  FParses.parses (fs := Protocol.DescribeConfigsResource)
    (FParses.field hv (set := fun (t : DescribeConfigsResource32) x => { t with ResourceType := x }) par_int8 <|
    FParses.field hv (set := fun (t : DescribeConfigsResource32) x => { t with ResourceName := x }) par_string <|
    FParses.field hv (set := fun (t : DescribeConfigsResource32) x => { t with ConfigurationKeys := x }) par_stringArray <|
    FParses.done)
    (by simp only [DescribeConfigsResource32.decode, Dec.andThen_assoc, Dec.andThen_nop]) (Fields.distinct_nodup _ (by decide +kernel)) (fun _ _ => rfl) t0

theorem DescribeConfigsResource32.shown {v : Int16} (hv : 0 ≤ v) (x : Val) (h : Protocol.DescribeConfigsResource.Typed v x) :
    Protocol.DescribeConfigsResource.shows v x (DescribeConfigsResource32.val (DescribeConfigsResource32.of v x {})) = true :=
  Shows.all hv (show_int8 (Fields.Typed.head (h) hv)) <|
    Shows.all hv (show_string (Fields.Typed.head (Fields.Typed.tail h) hv)) <|
    Shows.all hv (show_stringArray (Fields.Typed.head (Fields.Typed.tail (Fields.Typed.tail h)) hv)) <|
    rfl

/-- What `DescribeConfigsRequest` holds after reading the value `x` into `t0`. -/
def DescribeConfigsRequest.of (v : Int16) (x : Val) (t0 : DescribeConfigsRequest) : DescribeConfigsRequest :=
  { Resources := (x.get "Resources").toSliceOr (fun y => DescribeConfigsResource32.of v y {}) t0.Resources,
    IncludeSynoyms := if v ≥ 1 then (x.get "IncludeSynoyms").toBool else t0.IncludeSynoyms }

theorem DescribeConfigsRequest.decodes {v : Int16} (hv : 0 ≤ v) (x : Val) (h : Protocol.DescribeConfigsRequest.Valid false v x) (t0 : DescribeConfigsRequest) :
    Reads (DescribeConfigsRequest.decode v t0) (Protocol.DescribeConfigsRequest.wire false v x) (DescribeConfigsRequest.of v x t0) :=
  Reads.congr (((Step.readStructs (get := fun (t : DescribeConfigsRequest) => t.Resources) (set := fun (t : DescribeConfigsRequest) x => { t with Resources := x }) (fun y hy => DescribeConfigsResource32.decodes hv y hy {}) (Fields.Valid.head (h) hv))
      |>.andThen (Step.optField (c := v ≥ 1) (set := fun (t : DescribeConfigsRequest) x => { t with IncludeSynoyms := x }) (·.IncludeSynoyms) (fun _ => rfl) fun hc => read_bool (Fields.Valid.head (Fields.Valid.tail h) hc)) : Step _ _ _) t0)
    (Writes.eq (fs := Protocol.DescribeConfigsRequest) (v := v) (x := x) <| Writes.all hv rfl <| Writes.since rfl <| Writes.done).symm rfl

theorem DescribeConfigsRequest.parses {v : Int16} (hv : 0 ≤ v) (t0 : DescribeConfigsRequest) :
    Parses (DescribeConfigsRequest.decode v t0) ((Ty.struct Protocol.DescribeConfigsRequest).parse v) (fun x => DescribeConfigsRequest.of v x t0) :=
  FParses.parses (fs := Protocol.DescribeConfigsRequest)
    (FParses.structs hv (get := fun (t : DescribeConfigsRequest) => t.Resources) (set := fun (t : DescribeConfigsRequest) x => { t with Resources := x }) (DescribeConfigsResource32.parses hv {}) <|
    FParses.optField (c := v ≥ 1) Iff.rfl (set := fun (t : DescribeConfigsRequest) x => { t with IncludeSynoyms := x }) (·.IncludeSynoyms) (fun _ => rfl) par_bool <|
    FParses.done)
    (by simp only [DescribeConfigsRequest.decode, Dec.andThen_nop]) (Fields.distinct_nodup _ (by decide +kernel)) (fun _ _ => rfl) t0

theorem DescribeConfigsRequest.shown {v : Int16} (hv : 0 ≤ v) (x : Val) (h : Protocol.DescribeConfigsRequest.Typed v x) :
    Protocol.DescribeConfigsRequest.shows v x (DescribeConfigsRequest.val (DescribeConfigsRequest.of v x {})) = true :=
  Shows.all hv (show_structs (f := DescribeConfigsResource32.val) (g := fun y => DescribeConfigsResource32.of v y {}) (fun y hy => DescribeConfigsResource32.shown hv y hy) (Fields.Typed.head (h) hv)) <|
    Shows.since (.bool) rfl (fun hc => show_bool (Fields.Typed.head (Fields.Typed.tail h) hc)) rfl <|
    rfl

end Kafka.Msg
