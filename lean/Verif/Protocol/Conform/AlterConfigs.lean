import Verif.Protocol.ParseLemmas
import Verif.Gen.Spec.AlterConfigs
/-!
Generated by tools/gen_protocol.py: the AlterConfigs messages are written and read as the protocol says.
-/
namespace Kafka.Msg

open Protocol

/-- `AlterableConfig33` as a value of the protocol. -/
def AlterableConfig33.val (t : AlterableConfig33) : Val :=
  .struct [("Name", .str (some t.Name)),
    ("Value", .str (some t.Value))]

theorem AlterableConfig33.conforms {v : Int16} (hv : 0 ≤ v) (t : AlterableConfig33) :
    Protocol.AlterableConfig.wire false v (AlterableConfig33.val t) = AlterableConfig33.wire v t :=
  Writes.eq <|
    Writes.all hv (Protocol.wire_string v t.Name) <|
    Writes.all hv (Protocol.wire_string v t.Value) <|
    Writes.done

/-- There is nothing that may not be nil. -/
def AlterableConfig33.Full (_v : Int16) (_t : AlterableConfig33) : Prop := True

theorem AlterableConfig33.valid {v : Int16} (_hv : 0 ≤ v) (t : AlterableConfig33) (h : t.Fits v) (_hf : t.Full v) :
    Protocol.AlterableConfig.Valid true v (AlterableConfig33.val t) :=
  Valids.all (valid_string (h.Name)) <|
    Valids.all (valid_string (h.Value)) <|
    trivial

/-- `AlterConfigsResource33` as a value of the protocol. -/
def AlterConfigsResource33.val (t : AlterConfigsResource33) : Val :=
  .struct [("ResourceType", .int8 t.ResourceType),
    ("ResourceName", .str (some t.ResourceName)),
    ("Configs", ofStructs AlterableConfig33.val t.Configs)]

theorem AlterConfigsResource33.conforms {v : Int16} (hv : 0 ≤ v) (t : AlterConfigsResource33) :
    Protocol.AlterConfigsResource.wire false v (AlterConfigsResource33.val t) = AlterConfigsResource33.wire v t :=
  Writes.eq <|
    Writes.all hv (Protocol.wire_int8 v t.ResourceType) <|
    Writes.all hv (Protocol.wire_string v t.ResourceName) <|
    Writes.all hv (Protocol.wire_structs v (AlterableConfig33.conforms hv) t.Configs) <|
    Writes.done

/-- There is nothing that may not be nil. -/
def AlterConfigsResource33.Full (_v : Int16) (_t : AlterConfigsResource33) : Prop := True

theorem AlterConfigsResource33.valid {v : Int16} (hv : 0 ≤ v) (t : AlterConfigsResource33) (h : t.Fits v) (_hf : t.Full v) :
    Protocol.AlterConfigsResource.Valid true v (AlterConfigsResource33.val t) :=
  Valids.all trivial <|
    Valids.all (valid_string (h.ResourceName)) <|
    Valids.all (valid_structs (fun y h hf => AlterableConfig33.valid hv y h hf) (h.Configs) (fun _ _ => trivial)) <|
    trivial

/-- `AlterConfigsRequest` as a value of the protocol. -/
def AlterConfigsRequest.val (t : AlterConfigsRequest) : Val :=
  .struct [("Resources", ofStructs AlterConfigsResource33.val t.Resources),
    ("ValidateOnly", .bool t.ValidateOnly)]

theorem AlterConfigsRequest.conforms {v : Int16} (hv : 0 ≤ v) (t : AlterConfigsRequest) :
    Protocol.AlterConfigsRequest.wire false v (AlterConfigsRequest.val t) = AlterConfigsRequest.wire v t :=
  Writes.eq <|
    Writes.all hv (Protocol.wire_structs v (AlterConfigsResource33.conforms hv) t.Resources) <|
    Writes.all hv (Protocol.wire_bool v t.ValidateOnly) <|
    Writes.done

/-- There is nothing that may not be nil. -/
def AlterConfigsRequest.Full (_v : Int16) (_t : AlterConfigsRequest) : Prop := True

theorem AlterConfigsRequest.valid {v : Int16} (hv : 0 ≤ v) (t : AlterConfigsRequest) (h : t.Fits v) (_hf : t.Full v) :
    Protocol.AlterConfigsRequest.Valid true v (AlterConfigsRequest.val t) :=
  Valids.all (valid_structs (fun y h hf => AlterConfigsResource33.valid hv y h hf) (h.Resources) (fun _ _ => trivial)) <|
    Valids.all trivial <|
    trivial

/-- `AlterConfigsResourceResponse33` as a value of the protocol. -/
def AlterConfigsResourceResponse33.val (t : AlterConfigsResourceResponse33) : Val :=
  .struct [("ErrorCode", .int16 t.ErrorCode),
    ("ErrorMessage", .str (some t.ErrorMessage)),
    ("ResourceType", .int8 t.ResourceType),
    ("ResourceName", .str (some t.ResourceName))]

theorem AlterConfigsResourceResponse33.conforms {v : Int16} (hv : 0 ≤ v) (t : AlterConfigsResourceResponse33) :
    Protocol.AlterConfigsResourceResponse.wire false v (AlterConfigsResourceResponse33.val t) = AlterConfigsResourceResponse33.wire v t :=
  Writes.eq <|
    Writes.all hv (Protocol.wire_int16 v t.ErrorCode) <|
    Writes.all hv (Protocol.wire_string v t.ErrorMessage) <|
    Writes.all hv (Protocol.wire_int8 v t.ResourceType) <|
    Writes.all hv (Protocol.wire_string v t.ResourceName) <|
    Writes.done

/-- There is nothing that may not be nil. -/
def AlterConfigsResourceResponse33.Full (_v : Int16) (_t : AlterConfigsResourceResponse33) : Prop := True

theorem AlterConfigsResourceResponse33.valid {v : Int16} (_hv : 0 ≤ v) (t : AlterConfigsResourceResponse33) (h : t.Fits v) (_hf : t.Full v) :
    Protocol.AlterConfigsResourceResponse.Valid true v (AlterConfigsResourceResponse33.val t) :=
  Valids.all trivial <|
    Valids.all (valid_string (h.ErrorMessage)) <|
    Valids.all trivial <|
    Valids.all (valid_string (h.ResourceName)) <|
    trivial

/-- What `AlterConfigsResourceResponse33` holds after reading the value `x` into `t0`. -/
def AlterConfigsResourceResponse33.of (_v : Int16) (x : Val) (_t0 : AlterConfigsResourceResponse33) : AlterConfigsResourceResponse33 :=
  { ErrorCode := (x.get "ErrorCode").toInt16,
    ErrorMessage := (x.get "ErrorMessage").toStr,
    ResourceType := (x.get "ResourceType").toInt8,
    ResourceName := (x.get "ResourceName").toStr }

theorem AlterConfigsResourceResponse33.decodes {v : Int16} (hv : 0 ≤ v) (x : Val) (h : Protocol.AlterConfigsResourceResponse.Valid false v x) (t0 : AlterConfigsResourceResponse33) :
    Reads (AlterConfigsResourceResponse33.decode v t0) (Protocol.AlterConfigsResourceResponse.wire false v x) (AlterConfigsResourceResponse33.of v x t0) :=
  Reads.congr (((Step.field (set := fun (t : AlterConfigsResourceResponse33) x => { t with ErrorCode := x }) (read_int16 (Fields.Valid.head (h) hv)))
      |>.andThen (Step.field (set := fun (t : AlterConfigsResourceResponse33) x => { t with ErrorMessage := x }) (read_string (Fields.Valid.head (Fields.Valid.tail h) hv)))
      |>.andThen (Step.field (set := fun (t : AlterConfigsResourceResponse33) x => { t with ResourceType := x }) (read_int8 (Fields.Valid.head (Fields.Valid.tail (Fields.Valid.tail h)) hv)))
      |>.andThen (Step.field (set := fun (t : AlterConfigsResourceResponse33) x => { t with ResourceName := x }) (read_string (Fields.Valid.head (Fields.Valid.tail (Fields.Valid.tail (Fields.Valid.tail h))) hv))) : Step _ _ _) t0)
    (Writes.eq (fs := Protocol.AlterConfigsResourceResponse) (v := v) (x := x) <| Writes.all hv rfl <| Writes.all hv rfl <| Writes.all hv rfl <| Writes.all hv rfl <| Writes.done).symm rfl

theorem AlterConfigsResourceResponse33.parses {v : Int16} (hv : 0 ≤ v) (t0 : AlterConfigsResourceResponse33) :
    Parses (AlterConfigsResourceResponse33.decode v t0) ((Ty.struct Protocol.AlterConfigsResourceResponse).parse v) (fun x => AlterConfigsResourceResponse33.of v x t0) :=
  FParses.parses (fs := Protocol.AlterConfigsResourceResponse)
    (FParses.field hv (set := fun (t : AlterConfigsResourceResponse33) x => { t with ErrorCode := x }) par_int16 <|
    FParses.field hv (set := fun (t : AlterConfigsResourceResponse33) x => { t with ErrorMessage := x }) par_string <|
    FParses.field hv (set := fun (t : AlterConfigsResourceResponse33) x => { t with ResourceType := x }) par_int8 <|
    FParses.field hv (set := fun (t : AlterConfigsResourceResponse33) x => { t with ResourceName := x }) par_string <|
    FParses.done)
    (by simp only [AlterConfigsResourceResponse33.decode, Dec.andThen_assoc, Dec.andThen_nop]) (Fields.distinct_nodup _ (by decide +kernel)) (fun _ _ => rfl) t0

theorem AlterConfigsResourceResponse33.shown {v : Int16} (hv : 0 ≤ v) (x : Val) (h : Protocol.AlterConfigsResourceResponse.Typed v x) :
    Protocol.AlterConfigsResourceResponse.shows v x (AlterConfigsResourceResponse33.val (AlterConfigsResourceResponse33.of v x {})) = true :=
  Shows.all hv (show_int16 (Fields.Typed.head (h) hv)) <|
    Shows.all hv (show_string (Fields.Typed.head (Fields.Typed.tail h) hv)) <|
    Shows.all hv (show_int8 (Fields.Typed.head (Fields.Typed.tail (Fields.Typed.tail h)) hv)) <|
    Shows.all hv (show_string (Fields.Typed.head (Fields.Typed.tail (Fields.Typed.tail (Fields.Typed.tail h))) hv)) <|
    rfl

/-- `AlterConfigsResponse` as a value of the protocol. -/
def AlterConfigsResponse.val (t : AlterConfigsResponse) : Val :=
  .struct [("ThrottleTimeMs", .int32 t.ThrottleTimeMs),
    ("Responses", ofStructs AlterConfigsResourceResponse33.val t.Responses)]

theorem AlterConfigsResponse.conforms {v : Int16} (hv : 0 ≤ v) (t : AlterConfigsResponse) :
    Protocol.AlterConfigsResponse.wire false v (AlterConfigsResponse.val t) = AlterConfigsResponse.wire v t :=
  Writes.eq <|
    Writes.all hv (Protocol.wire_int32 v t.ThrottleTimeMs) <|
    Writes.all hv (Protocol.wire_structs v (AlterConfigsResourceResponse33.conforms hv) t.Responses) <|
    Writes.done

/-- There is nothing that may not be nil. -/
def AlterConfigsResponse.Full (_v : Int16) (_t : AlterConfigsResponse) : Prop := True

theorem AlterConfigsResponse.valid {v : Int16} (hv : 0 ≤ v) (t : AlterConfigsResponse) (h : t.Fits v) (_hf : t.Full v) :
    Protocol.AlterConfigsResponse.Valid true v (AlterConfigsResponse.val t) :=
  Valids.all trivial <|
    Valids.all (valid_structs (fun y h hf => AlterConfigsResourceResponse33.valid hv y h hf) (h.Responses) (fun _ _ => trivial)) <|
    trivial

/-- What `AlterConfigsResponse` holds after reading the value `x` into `t0`. -/
def AlterConfigsResponse.of (v : Int16) (x : Val) (t0 : AlterConfigsResponse) : AlterConfigsResponse :=
  { ThrottleTimeMs := (x.get "ThrottleTimeMs").toInt32,
    Responses := (x.get "Responses").toSliceOr (fun y => AlterConfigsResourceResponse33.of v y {}) t0.Responses }

theorem AlterConfigsResponse.decodes {v : Int16} (hv : 0 ≤ v) (x : Val) (h : Protocol.AlterConfigsResponse.Valid false v x) (t0 : AlterConfigsResponse) :
    Reads (AlterConfigsResponse.decode v t0) (Protocol.AlterConfigsResponse.wire false v x) (AlterConfigsResponse.of v x t0) :=
  Reads.congr (((Step.field (set := fun (t : AlterConfigsResponse) x => { t with ThrottleTimeMs := x }) (read_int32 (Fields.Valid.head (h) hv)))
      |>.andThen (Step.readStructs (get := fun (t : AlterConfigsResponse) => t.Responses) (set := fun (t : AlterConfigsResponse) x => { t with Responses := x }) (fun y hy => AlterConfigsResourceResponse33.decodes hv y hy {}) (Fields.Valid.head (Fields.Valid.tail h) hv)) : Step _ _ _) t0)
    (Writes.eq (fs := Protocol.AlterConfigsResponse) (v := v) (x := x) <| Writes.all hv rfl <| Writes.all hv rfl <| Writes.done).symm rfl

theorem AlterConfigsResponse.parses {v : Int16} (hv : 0 ≤ v) (t0 : AlterConfigsResponse) :
    Parses (AlterConfigsResponse.decode v t0) ((Ty.struct Protocol.AlterConfigsResponse).parse v) (fun x => AlterConfigsResponse.of v x t0) :=
  FParses.parses (fs := Protocol.AlterConfigsResponse)
    (FParses.field hv (set := fun (t : AlterConfigsResponse) x => { t with ThrottleTimeMs := x }) par_int32 <|
    FParses.structs hv (get := fun (t : AlterConfigsResponse) => t.Responses) (set := fun (t : AlterConfigsResponse) x => { t with Responses := x }) (AlterConfigsResourceResponse33.parses hv {}) <|
    FParses.done)
    (by simp only [AlterConfigsResponse.decode, Dec.andThen_nop]) (Fields.distinct_nodup _ (by decide +kernel)) (fun _ _ => rfl) t0

theorem AlterConfigsResponse.shown {v : Int16} (hv : 0 ≤ v) (x : Val) (h : Protocol.AlterConfigsResponse.Typed v x) :
    Protocol.AlterConfigsResponse.shows v x (AlterConfigsResponse.val (AlterConfigsResponse.of v x {})) = true :=
  Shows.all hv (show_int32 (Fields.Typed.head (h) hv)) <|
    Shows.all hv (show_structs (f := AlterConfigsResourceResponse33.val) (g := fun y => AlterConfigsResourceResponse33.of v y {}) (fun y hy => AlterConfigsResourceResponse33.shown hv y hy) (Fields.Typed.head (Fields.Typed.tail h) hv)) <|
    rfl

end Kafka.Msg
