import Verif.Protocol.Conform.AlterConfigs
/-!
Generated by tools/gen_protocol.py: the AlterConfigs request is read as the protocol says.
-/
namespace Kafka.Msg

open Protocol

/-- What `AlterableConfig33` holds after reading the value `x` into `t0`. -/
def AlterableConfig33.of (_v : Int16) (x : Val) (_t0 : AlterableConfig33) : AlterableConfig33 :=
  { Name := (x.get "Name").toStr,
    Value := (x.get "Value").toStr }

theorem AlterableConfig33.decodes {v : Int16} (hv : 0 ≤ v) (x : Val) (h : Protocol.AlterableConfig.Valid false v x) (t0 : AlterableConfig33) :
    Reads (AlterableConfig33.decode v t0) (Protocol.AlterableConfig.wire false v x) (AlterableConfig33.of v x t0) :=
  Reads.congr (((Step.field (set := fun (t : AlterableConfig33) x => { t with Name := x }) (read_string (Fields.Valid.head (h) hv)))
      |>.andThen (Step.field (set := fun (t : AlterableConfig33) x => { t with Value := x }) (read_string (Fields.Valid.head (Fields.Valid.tail h) hv))) : Step _ _ _) t0)
    (Writes.eq (fs := Protocol.AlterableConfig) (v := v) (x := x) <| Writes.all hv rfl <| Writes.all hv rfl <| Writes.done).symm rfl

theorem AlterableConfig33.parses {v : Int16} (hv : 0 ≤ v) (t0 : AlterableConfig33) :
    Parses (AlterableConfig33.decode v t0) ((Ty.struct Protocol.AlterableConfig).parse v) (fun x => AlterableConfig33.of v x t0) :=
  FParses.parses (fs := Protocol.AlterableConfig)
    (FParses.field hv (set := fun (t : AlterableConfig33) x => { t with Name := x }) par_string <|
    FParses.field hv (set := fun (t : AlterableConfig33) x => { t with Value := x }) par_string <|
    FParses.done)
    (by simp only [AlterableConfig33.decode, Dec.andThen_nop]) (Fields.distinct_nodup _ (by decide +kernel)) (fun _ _ => rfl) t0

theorem AlterableConfig33.shown {v : Int16} (hv : 0 ≤ v) (x : Val) (h : Protocol.AlterableConfig.Typed v x) :
    Protocol.AlterableConfig.shows v x (AlterableConfig33.val (AlterableConfig33.of v x {})) = true :=
  Shows.all hv (show_string (Fields.Typed.head (h) hv)) <|
    Shows.all hv (show_string (Fields.Typed.head (Fields.Typed.tail h) hv)) <|
    rfl

/-- What `AlterConfigsResource33` holds after reading the value `x` into `t0`. -/
def AlterConfigsResource33.of (v : Int16) (x : Val) (t0 : AlterConfigsResource33) : AlterConfigsResource33 :=
  { ResourceType := (x.get "ResourceType").toInt8,
    ResourceName := (x.get "ResourceName").toStr,
    Configs := (x.get "Configs").toSliceOr (fun y => AlterableConfig33.of v y {}) t0.Configs }

theorem AlterConfigsResource33.decodes {v : Int16} (hv : 0 ≤ v) (x : Val) (h : Protocol.AlterConfigsResource.Valid false v x) (t0 : AlterConfigsResource33) :
    Reads (AlterConfigsResource33.decode v t0) (Protocol.AlterConfigsResource.wire false v x) (AlterConfigsResource33.of v x t0) :=
  Reads.congr (((Step.field (set := fun (t : AlterConfigsResource33) x => { t with ResourceType := x }) (read_int8 (Fields.Valid.head (h) hv)))
      |>.andThen (Step.field (set := fun (t : AlterConfigsResource33) x => { t with ResourceName := x }) (read_string (Fields.Valid.head (Fields.Valid.tail h) hv)))
      |>.andThen (Step.readStructs (get := fun (t : AlterConfigsResource33) => t.Configs) (set := fun (t : AlterConfigsResource33) x => { t with Configs := x }) (fun y hy => AlterableConfig33.decodes hv y hy {}) (Fields.Valid.head (Fields.Valid.tail (Fields.Valid.tail h)) hv)) : Step _ _ _) t0)
    (Writes.eq (fs := Protocol.AlterConfigsResource) (v := v) (x := x) <| Writes.all hv rfl <| Writes.all hv rfl <| Writes.all hv rfl <| Writes.done).symm rfl

theorem AlterConfigsResource33.parses {v : Int16} (hv : 0 ≤ v) (t0 : AlterConfigsResource33) :
    Parses (AlterConfigsResource33.decode v t0) ((Ty.struct Protocol.AlterConfigsResource).parse v) (fun x => AlterConfigsResource33.of v x t0) :=
  FParses.parses (fs := Protocol.AlterConfigsResource)
    (FParses.field hv (set := fun (t : AlterConfigsResource33) x => { t with ResourceType := x }) par_int8 <|
    FParses.field hv (set := fun (t : AlterConfigsResource33) x => { t with ResourceName := x }) par_string <|
    FParses.structs hv (get := fun (t : AlterConfigsResource33) => t.Configs) (set := fun (t : AlterConfigsResource33) x => { t with Configs := x }) (AlterableConfig33.parses hv {}) <|
    FParses.done)
    (by simp only [AlterConfigsResource33.decode, Dec.andThen_assoc, Dec.andThen_nop]) (Fields.distinct_nodup _ (by decide +kernel)) (fun _ _ => rfl) t0

theorem AlterConfigsResource33.shown {v : Int16} (hv : 0 ≤ v) (x : Val) (h : Protocol.AlterConfigsResource.Typed v x) :
    Protocol.AlterConfigsResource.shows v x (AlterConfigsResource33.val (AlterConfigsResource33.of v x {})) = true :=
  Shows.all hv (show_int8 (Fields.Typed.head (h) hv)) <|
    Shows.all hv (show_string (Fields.Typed.head (Fields.Typed.tail h) hv)) <|
    Shows.all hv (show_structs (f := AlterableConfig33.val) (g := fun y => AlterableConfig33.of v y {}) (fun y hy => AlterableConfig33.shown hv y hy) (Fields.Typed.head (Fields.Typed.tail (Fields.Typed.tail h)) hv)) <|
    rfl

/-- What `AlterConfigsRequest` holds after reading the value `x` into `t0`. -/
def AlterConfigsRequest.of (v : Int16) (x : Val) (t0 : AlterConfigsRequest) : AlterConfigsRequest :=
  { Resources := (x.get "Resources").toSliceOr (fun y => AlterConfigsResource33.of v y {}) t0.Resources,
    ValidateOnly := (x.get "ValidateOnly").toBool }

theorem AlterConfigsRequest.decodes {v : Int16} (hv : 0 ≤ v) (x : Val) (h : Protocol.AlterConfigsRequest.Valid false v x) (t0 : AlterConfigsRequest) :
    Reads (AlterConfigsRequest.decode v t0) (Protocol.AlterConfigsRequest.wire false v x) (AlterConfigsRequest.of v x t0) :=
  Reads.congr (((Step.readStructs (get := fun (t : AlterConfigsRequest) => t.Resources) (set := fun (t : AlterConfigsRequest) x => { t with Resources := x }) (fun y hy => AlterConfigsResource33.decodes hv y hy {}) (Fields.Valid.head (h) hv))
      |>.andThen (Step.field (set := fun (t : AlterConfigsRequest) x => { t with ValidateOnly := x }) (read_bool (Fields.Valid.head (Fields.Valid.tail h) hv))) : Step _ _ _) t0)
    (Writes.eq (fs := Protocol.AlterConfigsRequest) (v := v) (x := x) <| Writes.all hv rfl <| Writes.all hv rfl <| Writes.done).symm rfl

theorem AlterConfigsRequest.parses {v : Int16} (hv : 0 ≤ v) (t0 : AlterConfigsRequest) :
    Parses (AlterConfigsRequest.decode v t0) ((Ty.struct Protocol.AlterConfigsRequest).parse v) (fun x => AlterConfigsRequest.of v x t0) :=
  FParses.parses (fs := Protocol.AlterConfigsRequest)
    (FParses.structs hv (get := fun (t : AlterConfigsRequest) => t.Resources) (set := fun (t : AlterConfigsRequest) x => { t with Resources := x }) (AlterConfigsResource33.parses hv {}) <|
    FParses.field hv (set := fun (t : AlterConfigsRequest) x => { t with ValidateOnly := x }) par_bool <|
    FParses.done)
    (by simp only [AlterConfigsRequest.decode, Dec.andThen_nop]) (Fields.distinct_nodup _ (by decide +kernel)) (fun _ _ => rfl) t0

theorem AlterConfigsRequest.shown {v : Int16} (hv : 0 ≤ v) (x : Val) (h : Protocol.AlterConfigsRequest.Typed v x) :
    Protocol.AlterConfigsRequest.shows v x (AlterConfigsRequest.val (AlterConfigsRequest.of v x {})) = true :=
  Shows.all hv (show_structs (f := AlterConfigsResource33.val) (g := fun y => AlterConfigsResource33.of v y {}) (fun y hy => AlterConfigsResource33.shown hv y hy) (Fields.Typed.head (h) hv)) <|
    Shows.all hv (show_bool (Fields.Typed.head (Fields.Typed.tail h) hv)) <|
    rfl

end Kafka.Msg
