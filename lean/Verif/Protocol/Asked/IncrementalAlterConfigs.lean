import Verif.Protocol.Conform.IncrementalAlterConfigs
/-!
Generated by tools/gen_protocol.py: the IncrementalAlterConfigs request is read as the protocol says.
-/
namespace Kafka.Msg

open Protocol

/-- What `AlterableConfig44` holds after reading the value `x` into `t0`. -/
def AlterableConfig44.of (_v : Int16) (x : Val) (_t0 : AlterableConfig44) : AlterableConfig44 :=
  { Name := (x.get "Name").toStr,
    ConfigOperation := (x.get "ConfigOperation").toInt8,
    Value := (x.get "Value").toStr }

theorem AlterableConfig44.decodes {v : Int16} (hv : 0 ≤ v) (x : Val) (h : Protocol.IncrementalAlterableConfig.Valid false v x) (t0 : AlterableConfig44) :
    Reads (AlterableConfig44.decode v t0) (Protocol.IncrementalAlterableConfig.wire false v x) (AlterableConfig44.of v x t0) :=
  Reads.congr (((Step.field (set := fun (t : AlterableConfig44) x => { t with Name := x }) (read_string (Fields.Valid.head (h) hv)))
      |>.andThen (Step.field (set := fun (t : AlterableConfig44) x => { t with ConfigOperation := x }) (read_int8 (Fields.Valid.head (Fields.Valid.tail h) hv)))
      |>.andThen (Step.field (set := fun (t : AlterableConfig44) x => { t with Value := x }) (read_string (Fields.Valid.head (Fields.Valid.tail (Fields.Valid.tail h)) hv))) : Step _ _ _) t0)
    (Writes.eq (fs := Protocol.IncrementalAlterableConfig) (v := v) (x := x) <| Writes.all hv rfl <| Writes.all hv rfl <| Writes.all hv rfl <| Writes.done).symm rfl

theorem AlterableConfig44.parses {v : Int16} (hv : 0 ≤ v) (t0 : AlterableConfig44) :
    Parses (AlterableConfig44.decode v t0) ((Ty.struct Protocol.IncrementalAlterableConfig).parse v) (fun x => AlterableConfig44.of v x t0) :=
  FParses.parses (fs := Protocol.IncrementalAlterableConfig)
    (FParses.field hv (set := fun (t : AlterableConfig44) x => { t with Name := x }) par_string <|
    FParses.field hv (set := fun (t : AlterableConfig44) x => { t with ConfigOperation := x }) par_int8 <|
    FParses.field hv (set := fun (t : AlterableConfig44) x => { t with Value := x }) par_string <|
    FParses.done)
    (by simp only [AlterableConfig44.decode, Dec.andThen_assoc, Dec.andThen_nop]) (Fields.distinct_nodup _ (by decide +kernel)) (fun _ _ => rfl) t0

theorem AlterableConfig44.shown {v : Int16} (hv : 0 ≤ v) (x : Val) (h : Protocol.IncrementalAlterableConfig.Typed v x) :
    Protocol.IncrementalAlterableConfig.shows v x (AlterableConfig44.val (AlterableConfig44.of v x {})) = true :=
  Shows.all hv (show_string (Fields.Typed.head (h) hv)) <|
    Shows.all hv (show_int8 (Fields.Typed.head (Fields.Typed.tail h) hv)) <|
    Shows.all hv (show_string (Fields.Typed.head (Fields.Typed.tail (Fields.Typed.tail h)) hv)) <|
    rfl

/-- What `AlterConfigsResource44` holds after reading the value `x` into `t0`. -/
def AlterConfigsResource44.of (v : Int16) (x : Val) (t0 : AlterConfigsResource44) : AlterConfigsResource44 :=
  { ResourceType := (x.get "ResourceType").toInt8,
    ResourceName := (x.get "ResourceName").toStr,
    Configs := (x.get "Configs").toSliceOr (fun y => AlterableConfig44.of v y {}) t0.Configs }

theorem AlterConfigsResource44.decodes {v : Int16} (hv : 0 ≤ v) (x : Val) (h : Protocol.IncrementalAlterConfigsResource.Valid false v x) (t0 : AlterConfigsResource44) :
    Reads (AlterConfigsResource44.decode v t0) (Protocol.IncrementalAlterConfigsResource.wire false v x) (AlterConfigsResource44.of v x t0) :=
  Reads.congr (((Step.field (set := fun (t : AlterConfigsResource44) x => { t with ResourceType := x }) (read_int8 (Fields.Valid.head (h) hv)))
      |>.andThen (Step.field (set := fun (t : AlterConfigsResource44) x => { t with ResourceName := x }) (read_string (Fields.Valid.head (Fields.Valid.tail h) hv)))
      |>.andThen (Step.readStructs (get := fun (t : AlterConfigsResource44) => t.Configs) (set := fun (t : AlterConfigsResource44) x => { t with Configs := x }) (fun y hy => AlterableConfig44.decodes hv y hy {}) (Fields.Valid.head (Fields.Valid.tail (Fields.Valid.tail h)) hv)) : Step _ _ _) t0)
    (Writes.eq (fs := Protocol.IncrementalAlterConfigsResource) (v := v) (x := x) <| Writes.all hv rfl <| Writes.all hv rfl <| Writes.all hv rfl <| Writes.done).symm rfl

theorem AlterConfigsResource44.parses {v : Int16} (hv : 0 ≤ v) (t0 : AlterConfigsResource44) :
    Parses (AlterConfigsResource44.decode v t0) ((Ty.struct Protocol.IncrementalAlterConfigsResource).parse v) (fun x => AlterConfigsResource44.of v x t0) :=
  FParses.parses (fs := Protocol.IncrementalAlterConfigsResource)
    (FParses.field hv (set := fun (t : AlterConfigsResource44) x => { t with ResourceType := x }) par_int8 <|
    FParses.field hv (set := fun (t : AlterConfigsResource44) x => { t with ResourceName := x }) par_string <|
    FParses.structs hv (get := fun (t : AlterConfigsResource44) => t.Configs) (set := fun (t : AlterConfigsResource44) x => { t with Configs := x }) (AlterableConfig44.parses hv {}) <|
    FParses.done)
    (by simp only [AlterConfigsResource44.decode, Dec.andThen_assoc, Dec.andThen_nop]) (Fields.distinct_nodup _ (by decide +kernel)) (fun _ _ => rfl) t0

theorem AlterConfigsResource44.shown {v : Int16} (hv : 0 ≤ v) (x : Val) (h : Protocol.IncrementalAlterConfigsResource.Typed v x) :
    Protocol.IncrementalAlterConfigsResource.shows v x (AlterConfigsResource44.val (AlterConfigsResource44.of v x {})) = true :=
  Shows.all hv (show_int8 (Fields.Typed.head (h) hv)) <|
    Shows.all hv (show_string (Fields.Typed.head (Fields.Typed.tail h) hv)) <|
    Shows.all hv (show_structs (f := AlterableConfig44.val) (g := fun y => AlterableConfig44.of v y {}) (fun y hy => AlterableConfig44.shown hv y hy) (Fields.Typed.head (Fields.Typed.tail (Fields.Typed.tail h)) hv)) <|
    rfl

/-- What `IncrementalAlterConfigsRequest` holds after reading the value `x` into `t0`. -/
def IncrementalAlterConfigsRequest.of (v : Int16) (x : Val) (t0 : IncrementalAlterConfigsRequest) : IncrementalAlterConfigsRequest :=
  { Resources := (x.get "Resources").toSliceOr (fun y => AlterConfigsResource44.of v y {}) t0.Resources,
    ValidateOnly := (x.get "ValidateOnly").toBool }

theorem IncrementalAlterConfigsRequest.decodes {v : Int16} (hv : 0 ≤ v) (x : Val) (h : Protocol.IncrementalAlterConfigsRequest.Valid false v x) (t0 : IncrementalAlterConfigsRequest) :
    Reads (IncrementalAlterConfigsRequest.decode v t0) (Protocol.IncrementalAlterConfigsRequest.wire false v x) (IncrementalAlterConfigsRequest.of v x t0) :=
  Reads.congr (((Step.readStructs (get := fun (t : IncrementalAlterConfigsRequest) => t.Resources) (set := fun (t : IncrementalAlterConfigsRequest) x => { t with Resources := x }) (fun y hy => AlterConfigsResource44.decodes hv y hy {}) (Fields.Valid.head (h) hv))
      |>.andThen (Step.field (set := fun (t : IncrementalAlterConfigsRequest) x => { t with ValidateOnly := x }) (read_bool (Fields.Valid.head (Fields.Valid.tail h) hv))) : Step _ _ _) t0)
    (Writes.eq (fs := Protocol.IncrementalAlterConfigsRequest) (v := v) (x := x) <| Writes.all hv rfl <| Writes.all hv rfl <| Writes.done).symm rfl

theorem IncrementalAlterConfigsRequest.parses {v : Int16} (hv : 0 ≤ v) (t0 : IncrementalAlterConfigsRequest) :
    Parses (IncrementalAlterConfigsRequest.decode v t0) ((Ty.struct Protocol.IncrementalAlterConfigsRequest).parse v) (fun x => IncrementalAlterConfigsRequest.of v x t0) :=
  FParses.parses (fs := Protocol.IncrementalAlterConfigsRequest)
    (FParses.structs hv (get := fun (t : IncrementalAlterConfigsRequest) => t.Resources) (set := fun (t : IncrementalAlterConfigsRequest) x => { t with Resources := x }) (AlterConfigsResource44.parses hv {}) <|
    FParses.field hv (set := fun (t : IncrementalAlterConfigsRequest) x => { t with ValidateOnly := x }) par_bool <|
    FParses.done)
    (by simp only [IncrementalAlterConfigsRequest.decode, Dec.andThen_nop]) (Fields.distinct_nodup _ (by decide +kernel)) (fun _ _ => rfl) t0

theorem IncrementalAlterConfigsRequest.shown {v : Int16} (hv : 0 ≤ v) (x : Val) (h : Protocol.IncrementalAlterConfigsRequest.Typed v x) :
    Protocol.IncrementalAlterConfigsRequest.shows v x (IncrementalAlterConfigsRequest.val (IncrementalAlterConfigsRequest.of v x {})) = true :=
  Shows.all hv (show_structs (f := AlterConfigsResource44.val) (g := fun y => AlterConfigsResource44.of v y {}) (fun y hy => AlterConfigsResource44.shown hv y hy) (Fields.Typed.head (h) hv)) <|
    Shows.all hv (show_bool (Fields.Typed.head (Fields.Typed.tail h) hv)) <|
    rfl

end Kafka.Msg
