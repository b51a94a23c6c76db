import Verif.Protocol.ParseLemmas
import Verif.Gen.Spec.IncrementalAlterConfigs
/-!
Generated by tools/gen_protocol.py: the IncrementalAlterConfigs messages are written and read as the protocol says.
-/
namespace Kafka.Msg

open Protocol

/-- `AlterableConfig44` as a value of the protocol. -/
def AlterableConfig44.val (t : AlterableConfig44) : Val :=
  .struct [("Name", .str (some t.Name)),
    ("ConfigOperation", .int8 t.ConfigOperation),
    ("Value", .str (some t.Value))]

theorem AlterableConfig44.conforms {v : Int16} (hv : 0 ≤ v) (t : AlterableConfig44) :
    Protocol.IncrementalAlterableConfig.wire false v (AlterableConfig44.val t) = AlterableConfig44.wire v t :=
  Writes.eq <|
    Writes.all hv (Protocol.wire_string v t.Name) <|
    Writes.all hv (Protocol.wire_int8 v t.ConfigOperation) <|
    Writes.all hv (Protocol.wire_string v t.Value) <|
    Writes.done

/-- There is nothing that may not be nil. -/
def AlterableConfig44.Full (_v : Int16) (_t : AlterableConfig44) : Prop := True

theorem AlterableConfig44.valid {v : Int16} (_hv : 0 ≤ v) (t : AlterableConfig44) (h : t.Fits v) (_hf : t.Full v) :
    Protocol.IncrementalAlterableConfig.Valid true v (AlterableConfig44.val t) :=
  Valids.all (valid_string (h.Name)) <|
    Valids.all trivial <|
    Valids.all (valid_string (h.Value)) <|
    trivial

/-- `AlterConfigsResource44` as a value of the protocol. -/
def AlterConfigsResource44.val (t : AlterConfigsResource44) : Val :=
  .struct [("ResourceType", .int8 t.ResourceType),
    ("ResourceName", .str (some t.ResourceName)),
    ("Configs", ofStructs AlterableConfig44.val t.Configs)]

theorem AlterConfigsResource44.conforms {v : Int16} (hv : 0 ≤ v) (t : AlterConfigsResource44) :
    Protocol.IncrementalAlterConfigsResource.wire false v (AlterConfigsResource44.val t) = AlterConfigsResource44.wire v t :=
  Writes.eq <|
    Writes.all hv (Protocol.wire_int8 v t.ResourceType) <|
    Writes.all hv (Protocol.wire_string v t.ResourceName) <|
    Writes.all hv (Protocol.wire_structs v (AlterableConfig44.conforms hv) t.Configs) <|
    Writes.done

/-- There is nothing that may not be nil. -/
def AlterConfigsResource44.Full (_v : Int16) (_t : AlterConfigsResource44) : Prop := True

theorem AlterConfigsResource44.valid {v : Int16} (hv : 0 ≤ v) (t : AlterConfigsResource44) (h : t.Fits v) (_hf : t.Full v) :
    Protocol.IncrementalAlterConfigsResource.Valid true v (AlterConfigsResource44.val t) :=
  Valids.all trivial <|
    Valids.all (valid_string (h.ResourceName)) <|
    Valids.all (valid_structs (fun y h hf => AlterableConfig44.valid hv y h hf) (h.Configs) (fun _ _ => trivial)) <|
    trivial

/-- `IncrementalAlterConfigsRequest` as a value of the protocol. -/
def IncrementalAlterConfigsRequest.val (t : IncrementalAlterConfigsRequest) : Val :=
  .struct [("Resources", ofStructs AlterConfigsResource44.val t.Resources),
    ("ValidateOnly", .bool t.ValidateOnly)]

theorem IncrementalAlterConfigsRequest.conforms {v : Int16} (hv : 0 ≤ v) (t : IncrementalAlterConfigsRequest) :
    Protocol.IncrementalAlterConfigsRequest.wire false v (IncrementalAlterConfigsRequest.val t) = IncrementalAlterConfigsRequest.wire v t :=
  Writes.eq <|
    Writes.all hv (Protocol.wire_structs v (AlterConfigsResource44.conforms hv) t.Resources) <|
    Writes.all hv (Protocol.wire_bool v t.ValidateOnly) <|
    Writes.done

/-- There is nothing that may not be nil. -/
def IncrementalAlterConfigsRequest.Full (_v : Int16) (_t : IncrementalAlterConfigsRequest) : Prop := True

theorem IncrementalAlterConfigsRequest.valid {v : Int16} (hv : 0 ≤ v) (t : IncrementalAlterConfigsRequest) (h : t.Fits v) (_hf : t.Full v) :
    Protocol.IncrementalAlterConfigsRequest.Valid true v (IncrementalAlterConfigsRequest.val t) :=
  Valids.all (valid_structs (fun y h hf => AlterConfigsResource44.valid hv y h hf) (h.Resources) (fun _ _ => trivial)) <|
    Valids.all trivial <|
    trivial

/-- `AlterConfigsResourceResponse44` as a value of the protocol. -/
def AlterConfigsResourceResponse44.val (t : AlterConfigsResourceResponse44) : Val :=
  .struct [("ErrorCode", .int16 t.ErrorCode),
    ("ErrorMessage", .str (some t.ErrorMessage)),
    ("ResourceType", .int8 t.ResourceType),
    ("ResourceName", .str (some t.ResourceName))]

theorem AlterConfigsResourceResponse44.conforms {v : Int16} (hv : 0 ≤ v) (t : AlterConfigsResourceResponse44) :
    Protocol.AlterConfigsResourceResponse.wire false v (AlterConfigsResourceResponse44.val t) = AlterConfigsResourceResponse44.wire v t :=
  Writes.eq <|
    Writes.all hv (Protocol.wire_int16 v t.ErrorCode) <|
    Writes.all hv (Protocol.wire_string v t.ErrorMessage) <|
    Writes.all hv (Protocol.wire_int8 v t.ResourceType) <|
    Writes.all hv (Protocol.wire_string v t.ResourceName) <|
    Writes.done

/-- There is nothing that may not be nil. -/
def AlterConfigsResourceResponse44.Full (_v : Int16) (_t : AlterConfigsResourceResponse44) : Prop := True

theorem AlterConfigsResourceResponse44.valid {v : Int16} (_hv : 0 ≤ v) (t : AlterConfigsResourceResponse44) (h : t.Fits v) (_hf : t.Full v) :
    Protocol.AlterConfigsResourceResponse.Valid true v (AlterConfigsResourceResponse44.val t) :=
  Valids.all trivial <|
    Valids.all (valid_string (h.ErrorMessage)) <|
    Valids.all trivial <|
    Valids.all (valid_string (h.ResourceName)) <|
    trivial

/-- What `AlterConfigsResourceResponse44` holds after reading the value `x` into `t0`. -/
def AlterConfigsResourceResponse44.of (_v : Int16) (x : Val) (_t0 : AlterConfigsResourceResponse44) : AlterConfigsResourceResponse44 :=
  { ErrorCode := (x.get "ErrorCode").toInt16,
    ErrorMessage := (x.get "ErrorMessage").toStr,
    ResourceType := (x.get "ResourceType").toInt8,
    ResourceName := (x.get "ResourceName").toStr }

theorem AlterConfigsResourceResponse44.decodes {v : Int16} (hv : 0 ≤ v) (x : Val) (h : Protocol.AlterConfigsResourceResponse.Valid false v x) (t0 : AlterConfigsResourceResponse44) :
    Reads (AlterConfigsResourceResponse44.decode v t0) (Protocol.AlterConfigsResourceResponse.wire false v x) (AlterConfigsResourceResponse44.of v x t0) :=
  Reads.congr (((Step.field (set := fun (t : AlterConfigsResourceResponse44) x => { t with ErrorCode := x }) (read_int16 (Fields.Valid.head (h) hv)))
      |>.andThen (Step.field (set := fun (t : AlterConfigsResourceResponse44) x => { t with ErrorMessage := x }) (read_string (Fields.Valid.head (Fields.Valid.tail h) hv)))
      |>.andThen (Step.field (set := fun (t : AlterConfigsResourceResponse44) x => { t with ResourceType := x }) (read_int8 (Fields.Valid.head (Fields.Valid.tail (Fields.Valid.tail h)) hv)))
      |>.andThen (Step.field (set := fun (t : AlterConfigsResourceResponse44) x => { t with ResourceName := x }) (read_string (Fields.Valid.head (Fields.Valid.tail (Fields.Valid.tail (Fields.Valid.tail h))) hv))) : Step _ _ _) t0)
    (Writes.eq (fs := Protocol.AlterConfigsResourceResponse) (v := v) (x := x) <| Writes.all hv rfl <| Writes.all hv rfl <| Writes.all hv rfl <| Writes.all hv rfl <| Writes.done).symm rfl

theorem AlterConfigsResourceResponse44.parses {v : Int16} (hv : 0 ≤ v) (t0 : AlterConfigsResourceResponse44) :
    Parses (AlterConfigsResourceResponse44.decode v t0) ((Ty.struct Protocol.AlterConfigsResourceResponse).parse v) (fun x => AlterConfigsResourceResponse44.of v x t0) :=
  FParses.parses (fs := Protocol.AlterConfigsResourceResponse)
    (FParses.field hv (set := fun (t : AlterConfigsResourceResponse44) x => { t with ErrorCode := x }) par_int16 <|
    FParses.field hv (set := fun (t : AlterConfigsResourceResponse44) x => { t with ErrorMessage := x }) par_string <|
    FParses.field hv (set := fun (t : AlterConfigsResourceResponse44) x => { t with ResourceType := x }) par_int8 <|
    FParses.field hv (set := fun (t : AlterConfigsResourceResponse44) x => { t with ResourceName := x }) par_string <|
    FParses.done)
    (by simp only [AlterConfigsResourceResponse44.decode, Dec.andThen_assoc, Dec.andThen_nop]) (Fields.distinct_nodup _ (by decide +kernel)) (fun _ _ => rfl) t0

theorem AlterConfigsResourceResponse44.shown {v : Int16} (hv : 0 ≤ v) (x : Val) (h : Protocol.AlterConfigsResourceResponse.Typed v x) :
    Protocol.AlterConfigsResourceResponse.shows v x (AlterConfigsResourceResponse44.val (AlterConfigsResourceResponse44.of v x {})) = true :=
  Shows.all hv (show_int16 (Fields.Typed.head (h) hv)) <|
    Shows.all hv (show_string (Fields.Typed.head (Fields.Typed.tail h) hv)) <|
    Shows.all hv (show_int8 (Fields.Typed.head (Fields.Typed.tail (Fields.Typed.tail h)) hv)) <|
    Shows.all hv (show_string (Fields.Typed.head (Fields.Typed.tail (Fields.Typed.tail (Fields.Typed.tail h))) hv)) <|
    rfl

/-- `IncrementalAlterConfigsResponse` as a value of the protocol. -/
def IncrementalAlterConfigsResponse.val (t : IncrementalAlterConfigsResponse) : Val :=
  .struct [("ThrottleTimeMs", .int32 t.ThrottleTimeMs),
    ("Responses", ofStructs AlterConfigsResourceResponse44.val t.Responses)]

theorem IncrementalAlterConfigsResponse.conforms {v : Int16} (hv : 0 ≤ v) (t : IncrementalAlterConfigsResponse) :
    Protocol.IncrementalAlterConfigsResponse.wire false v (IncrementalAlterConfigsResponse.val t) = IncrementalAlterConfigsResponse.wire v t :=
  Writes.eq <|
    Writes.all hv (Protocol.wire_int32 v t.ThrottleTimeMs) <|
    Writes.all hv (Protocol.wire_structs v (AlterConfigsResourceResponse44.conforms hv) t.Responses) <|
    Writes.done

/-- There is nothing that may not be nil. -/
def IncrementalAlterConfigsResponse.Full (_v : Int16) (_t : IncrementalAlterConfigsResponse) : Prop := True

theorem IncrementalAlterConfigsResponse.valid {v : Int16} (hv : 0 ≤ v) (t : IncrementalAlterConfigsResponse) (h : t.Fits v) (_hf : t.Full v) :
    Protocol.IncrementalAlterConfigsResponse.Valid true v (IncrementalAlterConfigsResponse.val t) :=
  Valids.all trivial <|
    Valids.all (valid_structs (fun y h hf => AlterConfigsResourceResponse44.valid hv y h hf) (h.Responses) (fun _ _ => trivial)) <|
    trivial

/-- What `IncrementalAlterConfigsResponse` holds after reading the value `x` into `t0`. -/
def IncrementalAlterConfigsResponse.of (v : Int16) (x : Val) (t0 : IncrementalAlterConfigsResponse) : IncrementalAlterConfigsResponse :=
  { ThrottleTimeMs := (x.get "ThrottleTimeMs").toInt32,
    Responses := (x.get "Responses").toSliceOr (fun y => AlterConfigsResourceResponse44.of v y {}) t0.Responses }

theorem IncrementalAlterConfigsResponse.decodes {v : Int16} (hv : 0 ≤ v) (x : Val) (h : Protocol.IncrementalAlterConfigsResponse.Valid false v x) (t0 : IncrementalAlterConfigsResponse) :
    Reads (IncrementalAlterConfigsResponse.decode v t0) (Protocol.IncrementalAlterConfigsResponse.wire false v x) (IncrementalAlterConfigsResponse.of v x t0) :=
  Reads.congr (((Step.field (set := fun (t : IncrementalAlterConfigsResponse) x => { t with ThrottleTimeMs := x }) (read_int32 (Fields.Valid.head (h) hv)))
      |>.andThen (Step.readStructs (get := fun (t : IncrementalAlterConfigsResponse) => t.Responses) (set := fun (t : IncrementalAlterConfigsResponse) x => { t with Responses := x }) (fun y hy => AlterConfigsResourceResponse44.decodes hv y hy {}) (Fields.Valid.head (Fields.Valid.tail h) hv)) : Step _ _ _) t0)
    (Writes.eq (fs := Protocol.IncrementalAlterConfigsResponse) (v := v) (x := x) <| Writes.all hv rfl <| Writes.all hv rfl <| Writes.done).symm rfl

theorem IncrementalAlterConfigsResponse.parses {v : Int16} (hv : 0 ≤ v) (t0 : IncrementalAlterConfigsResponse) :
    Parses (IncrementalAlterConfigsResponse.decode v t0) ((Ty.struct Protocol.IncrementalAlterConfigsResponse).parse v) (fun x => IncrementalAlterConfigsResponse.of v x t0) :=
  FParses.parses (fs := Protocol.IncrementalAlterConfigsResponse)
    (FParses.field hv (set := fun (t : IncrementalAlterConfigsResponse) x => { t with ThrottleTimeMs := x }) par_int32 <|
    FParses.structs hv (get := fun (t : IncrementalAlterConfigsResponse) => t.Responses) (set := fun (t : IncrementalAlterConfigsResponse) x => { t with Responses := x }) (AlterConfigsResourceResponse44.parses hv {}) <|
    FParses.done)
    (by simp only [IncrementalAlterConfigsResponse.decode, Dec.andThen_nop]) (Fields.distinct_nodup _ (by decide +kernel)) (fun _ _ => rfl) t0

theorem IncrementalAlterConfigsResponse.shown {v : Int16} (hv : 0 ≤ v) (x : Val) (h : Protocol.IncrementalAlterConfigsResponse.Typed v x) :
    Protocol.IncrementalAlterConfigsResponse.shows v x (IncrementalAlterConfigsResponse.val (IncrementalAlterConfigsResponse.of v x {})) = true :=
  Shows.all hv (show_int32 (Fields.Typed.head (h) hv)) <|
    Shows.all hv (show_structs (f := AlterConfigsResourceResponse44.val) (g := fun y => AlterConfigsResourceResponse44.of v y {}) (fun y hy => AlterConfigsResourceResponse44.shown hv y hy) (Fields.Typed.head (Fields.Typed.tail h) hv)) <|
    rfl

end Kafka.Msg
