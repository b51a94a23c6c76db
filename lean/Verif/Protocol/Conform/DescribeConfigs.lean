import Verif.Protocol.ParseLemmas
import Verif.Gen.Spec.DescribeConfigs
/-!
Generated by tools/gen_protocol.py: the DescribeConfigs messages are written and read as the protocol says.
-/
namespace Kafka.Msg

open Protocol

/-- `DescribeConfigsResource32` as a value of the protocol. -/
def DescribeConfigsResource32.val (t : DescribeConfigsResource32) : Val :=
  .struct [("ResourceType", .int8 t.ResourceType),
    ("ResourceName", .str (some t.ResourceName)),
    ("ConfigurationKeys", ofScalars (fun s => .str (some s)) t.ConfigurationKeys)]

theorem DescribeConfigsResource32.conforms {v : Int16} (hv : 0 ≤ v) (t : DescribeConfigsResource32) :
    Protocol.DescribeConfigsResource.wire false v (DescribeConfigsResource32.val t) = DescribeConfigsResource32.wire v t :=
  Writes.eq <|
    Writes.all hv (Protocol.wire_int8 v t.ResourceType) <|
    Writes.all hv (Protocol.wire_string v t.ResourceName) <|
    Writes.all hv (Protocol.wire_stringArray v t.ConfigurationKeys) <|
    Writes.done

/-- There is nothing that may not be nil. -/
def DescribeConfigsResource32.Full (_v : Int16) (_t : DescribeConfigsResource32) : Prop := True

theorem DescribeConfigsResource32.valid {v : Int16} (hv : 0 ≤ v) (t : DescribeConfigsResource32) (h : t.Fits v) (_hf : t.Full v) :
    Protocol.DescribeConfigsResource.Valid true v (DescribeConfigsResource32.val t) :=
  Valids.all trivial <|
    Valids.all (valid_string (h.ResourceName)) <|
    Valids.all (valid_stringArray (h.ConfigurationKeys) (.inl (nullable_zero hv))) <|
    trivial

/-- `DescribeConfigsRequest` as a value of the protocol. -/
def DescribeConfigsRequest.val (t : DescribeConfigsRequest) : Val :=
  .struct [("Resources", ofStructs DescribeConfigsResource32.val t.Resources),
    ("IncludeSynoyms", .bool t.IncludeSynoyms)]

theorem DescribeConfigsRequest.conforms {v : Int16} (hv : 0 ≤ v) (t : DescribeConfigsRequest) :
    Protocol.DescribeConfigsRequest.wire false v (DescribeConfigsRequest.val t) = DescribeConfigsRequest.wire v t :=
  Writes.eq <|
    Writes.all hv (Protocol.wire_structs v (DescribeConfigsResource32.conforms hv) t.Resources) <|
    Writes.since (Protocol.wire_bool v t.IncludeSynoyms) <|
    Writes.done

/-- There is nothing that may not be nil. -/
def DescribeConfigsRequest.Full (_v : Int16) (_t : DescribeConfigsRequest) : Prop := True

theorem DescribeConfigsRequest.valid {v : Int16} (hv : 0 ≤ v) (t : DescribeConfigsRequest) (h : t.Fits v) (_hf : t.Full v) :
    Protocol.DescribeConfigsRequest.Valid true v (DescribeConfigsRequest.val t) :=
  Valids.all (valid_structs (fun y h hf => DescribeConfigsResource32.valid hv y h hf) (h.Resources) (fun _ _ => trivial)) <|
    Valids.since (fun _ => trivial) <|
    trivial

/-- `DescribeConfigsSynonym32` as a value of the protocol. -/
def DescribeConfigsSynonym32.val (t : DescribeConfigsSynonym32) : Val :=
  .struct [("Name", .str (some t.Name)),
    ("Value", .str (some t.Value)),
    ("Source", .int8 t.Source)]

theorem DescribeConfigsSynonym32.conforms {v : Int16} (_hv : 0 ≤ v) (t : DescribeConfigsSynonym32) :
    Protocol.DescribeConfigsSynonym.wire false v (DescribeConfigsSynonym32.val t) = DescribeConfigsSynonym32.wire v t :=
  Writes.eq <|
    Writes.since (Protocol.wire_string v t.Name) <|
    Writes.since (Protocol.wire_string v t.Value) <|
    Writes.since (Protocol.wire_int8 v t.Source) <|
    Writes.done

/-- There is nothing that may not be nil. -/
def DescribeConfigsSynonym32.Full (_v : Int16) (_t : DescribeConfigsSynonym32) : Prop := True

theorem DescribeConfigsSynonym32.valid {v : Int16} (_hv : 0 ≤ v) (t : DescribeConfigsSynonym32) (h : t.Fits v) (_hf : t.Full v) :
    Protocol.DescribeConfigsSynonym.Valid true v (DescribeConfigsSynonym32.val t) :=
  Valids.since (fun hc => valid_string (h.Name hc)) <|
    Valids.since (fun hc => valid_string (h.Value hc)) <|
    Valids.since (fun _ => trivial) <|
    trivial

/-- What `DescribeConfigsSynonym32` holds after reading the value `x` into `t0`. -/
def DescribeConfigsSynonym32.of (v : Int16) (x : Val) (t0 : DescribeConfigsSynonym32) : DescribeConfigsSynonym32 :=
  { Name := if v ≥ 1 then (x.get "Name").toStr else t0.Name,
    Value := if v ≥ 1 then (x.get "Value").toStr else t0.Value,
    Source := if v ≥ 1 then (x.get "Source").toInt8 else t0.Source }

theorem DescribeConfigsSynonym32.decodes {v : Int16} (_hv : 0 ≤ v) (x : Val) (h : Protocol.DescribeConfigsSynonym.Valid false v x) (t0 : DescribeConfigsSynonym32) :
    Reads (DescribeConfigsSynonym32.decode v t0) (Protocol.DescribeConfigsSynonym.wire false v x) (DescribeConfigsSynonym32.of v x t0) :=
  Reads.congr (((Step.optField (c := v ≥ 1) (set := fun (t : DescribeConfigsSynonym32) x => { t with Name := x }) (·.Name) (fun _ => rfl) fun hc => read_string (Fields.Valid.head (h) hc))
      |>.andThen (Step.optField (c := v ≥ 1) (set := fun (t : DescribeConfigsSynonym32) x => { t with Value := x }) (·.Value) (fun _ => rfl) fun hc => read_string (Fields.Valid.head (Fields.Valid.tail h) hc))
      |>.andThen (Step.optField (c := v ≥ 1) (set := fun (t : DescribeConfigsSynonym32) x => { t with Source := x }) (·.Source) (fun _ => rfl) fun hc => read_int8 (Fields.Valid.head (Fields.Valid.tail (Fields.Valid.tail h)) hc)) : Step _ _ _) t0)
    (Writes.eq (fs := Protocol.DescribeConfigsSynonym) (v := v) (x := x) <| Writes.since rfl <| Writes.since rfl <| Writes.since rfl <| Writes.done).symm rfl

theorem DescribeConfigsSynonym32.parses {v : Int16} (_hv : 0 ≤ v) (t0 : DescribeConfigsSynonym32) :
    Parses (DescribeConfigsSynonym32.decode v t0) ((Ty.struct Protocol.DescribeConfigsSynonym).parse v) (fun x => DescribeConfigsSynonym32.of v x t0) :=
  FParses.parses (fs := Protocol.DescribeConfigsSynonym)
    (FParses.optField (c := v ≥ 1) Iff.rfl (set := fun (t : DescribeConfigsSynonym32) x => { t with Name := x }) (·.Name) (fun _ => rfl) par_string <|
    FParses.optField (c := v ≥ 1) Iff.rfl (set := fun (t : DescribeConfigsSynonym32) x => { t with Value := x }) (·.Value) (fun _ => rfl) par_string <|
    FParses.optField (c := v ≥ 1) Iff.rfl (set := fun (t : DescribeConfigsSynonym32) x => { t with Source := x }) (·.Source) (fun _ => rfl) par_int8 <|
    FParses.done)
    (by simp only [DescribeConfigsSynonym32.decode, Dec.andThen_assoc, Dec.andThen_nop]) (Fields.distinct_nodup _ (by decide +kernel)) (fun _ _ => rfl) t0

theorem DescribeConfigsSynonym32.shown {v : Int16} (_hv : 0 ≤ v) (x : Val) (h : Protocol.DescribeConfigsSynonym.Typed v x) :
    Protocol.DescribeConfigsSynonym.shows v x (DescribeConfigsSynonym32.val (DescribeConfigsSynonym32.of v x {})) = true :=
  Shows.since (fun s => .str (some s)) rfl (fun hc => show_string (Fields.Typed.head (h) hc)) rfl <|
    Shows.since (fun s => .str (some s)) rfl (fun hc => show_string (Fields.Typed.head (Fields.Typed.tail h) hc)) rfl <|
    Shows.since (.int8) rfl (fun hc => show_int8 (Fields.Typed.head (Fields.Typed.tail (Fields.Typed.tail h)) hc)) rfl <|
    rfl

/-- `DescribeConfigsResourceResult32` as a value of the protocol. -/
def DescribeConfigsResourceResult32.val (t : DescribeConfigsResourceResult32) : Val :=
  .struct [("Name", .str (some t.Name)),
    ("Value", .str (some t.Value)),
    ("ReadOnly", .bool t.ReadOnly),
    ("IsDefault", .bool t.IsDefault),
    ("ConfigSource", .int8 t.ConfigSource),
    ("IsSensitive", .bool t.IsSensitive),
    ("Synonyms", ofStructs DescribeConfigsSynonym32.val t.Synonyms)]

theorem DescribeConfigsResourceResult32.conforms {v : Int16} (hv : 0 ≤ v) (t : DescribeConfigsResourceResult32) :
    Protocol.DescribeConfigsResourceResult.wire false v (DescribeConfigsResourceResult32.val t) = DescribeConfigsResourceResult32.wire v t :=
  Writes.eq <|
    Writes.all hv (Protocol.wire_string v t.Name) <|
    Writes.all hv (Protocol.wire_string v t.Value) <|
    Writes.all hv (Protocol.wire_bool v t.ReadOnly) <|
    Writes.between (Protocol.wire_bool v t.IsDefault) <|
    Writes.since (Protocol.wire_int8 v t.ConfigSource) <|
    Writes.all hv (Protocol.wire_bool v t.IsSensitive) <|
    Writes.since (Protocol.wire_structs v (DescribeConfigsSynonym32.conforms hv) t.Synonyms) <|
    Writes.done

/-- There is nothing that may not be nil. -/
def DescribeConfigsResourceResult32.Full (_v : Int16) (_t : DescribeConfigsResourceResult32) : Prop := True

theorem DescribeConfigsResourceResult32.valid {v : Int16} (hv : 0 ≤ v) (t : DescribeConfigsResourceResult32) (h : t.Fits v) (_hf : t.Full v) :
    Protocol.DescribeConfigsResourceResult.Valid true v (DescribeConfigsResourceResult32.val t) :=
  Valids.all (valid_string (h.Name)) <|
    Valids.all (valid_string (h.Value)) <|
    Valids.all trivial <|
    Valids.between (fun _ => trivial) <|
    Valids.since (fun _ => trivial) <|
    Valids.all trivial <|
    Valids.since (fun hc => valid_structs (fun y h hf => DescribeConfigsSynonym32.valid hv y h hf) (h.Synonyms hc) (fun _ _ => trivial)) <|
    trivial

/-- What `DescribeConfigsResourceResult32` holds after reading the value `x` into `t0`. -/
def DescribeConfigsResourceResult32.of (v : Int16) (x : Val) (t0 : DescribeConfigsResourceResult32) : DescribeConfigsResourceResult32 :=
  { Name := (x.get "Name").toStr,
    Value := (x.get "Value").toStr,
    ReadOnly := (x.get "ReadOnly").toBool,
    IsDefault := if v ≥ 0 ∧ v ≤ 0 then (x.get "IsDefault").toBool else t0.IsDefault,
    ConfigSource := if v ≥ 1 then (x.get "ConfigSource").toInt8 else t0.ConfigSource,
    IsSensitive := (x.get "IsSensitive").toBool,
    Synonyms := if v ≥ 1 then (x.get "Synonyms").toSliceOr (fun y => DescribeConfigsSynonym32.of v y {}) t0.Synonyms else t0.Synonyms }

theorem DescribeConfigsResourceResult32.decodes {v : Int16} (hv : 0 ≤ v) (x : Val) (h : Protocol.DescribeConfigsResourceResult.Valid false v x) (t0 : DescribeConfigsResourceResult32) :
    Reads (DescribeConfigsResourceResult32.decode v t0) (Protocol.DescribeConfigsResourceResult.wire false v x) (DescribeConfigsResourceResult32.of v x t0) :=
  Reads.congr (((Step.field (set := fun (t : DescribeConfigsResourceResult32) x => { t with Name := x }) (read_string (Fields.Valid.head (h) hv)))
      |>.andThen (Step.field (set := fun (t : DescribeConfigsResourceResult32) x => { t with Value := x }) (read_string (Fields.Valid.head (Fields.Valid.tail h) hv)))
      |>.andThen (Step.field (set := fun (t : DescribeConfigsResourceResult32) x => { t with ReadOnly := x }) (read_bool (Fields.Valid.head (Fields.Valid.tail (Fields.Valid.tail h)) hv)))
      |>.andThen (Step.optField (c := v ≥ 0 ∧ v ≤ 0) (set := fun (t : DescribeConfigsResourceResult32) x => { t with IsDefault := x }) (·.IsDefault) (fun _ => rfl) fun hc => read_bool (Fields.Valid.head (Fields.Valid.tail (Fields.Valid.tail (Fields.Valid.tail h))) hc))
      |>.andThen (Step.optField (c := v ≥ 1) (set := fun (t : DescribeConfigsResourceResult32) x => { t with ConfigSource := x }) (·.ConfigSource) (fun _ => rfl) fun hc => read_int8 (Fields.Valid.head (Fields.Valid.tail (Fields.Valid.tail (Fields.Valid.tail (Fields.Valid.tail h)))) hc))
      |>.andThen (Step.field (set := fun (t : DescribeConfigsResourceResult32) x => { t with IsSensitive := x }) (read_bool (Fields.Valid.head (Fields.Valid.tail (Fields.Valid.tail (Fields.Valid.tail (Fields.Valid.tail (Fields.Valid.tail h))))) hv)))
      |>.andThen (Step.readOptStructs (c := v ≥ 1) (get := fun (t : DescribeConfigsResourceResult32) => t.Synonyms) (set := fun (t : DescribeConfigsResourceResult32) x => { t with Synonyms := x }) (fun _ => rfl) (fun y hy => DescribeConfigsSynonym32.decodes hv y hy {}) fun hc => Fields.Valid.head (Fields.Valid.tail (Fields.Valid.tail (Fields.Valid.tail (Fields.Valid.tail (Fields.Valid.tail (Fields.Valid.tail h)))))) hc) : Step _ _ _) t0)
    (Writes.eq (fs := Protocol.DescribeConfigsResourceResult) (v := v) (x := x) <| Writes.all hv rfl <| Writes.all hv rfl <| Writes.all hv rfl <| Writes.between rfl <| Writes.since rfl <| Writes.all hv rfl <| Writes.since rfl <| Writes.done).symm rfl

theorem DescribeConfigsResourceResult32.parses {v : Int16} (hv : 0 ≤ v) (t0 : DescribeConfigsResourceResult32) :
    Parses (DescribeConfigsResourceResult32.decode v t0) ((Ty.struct Protocol.DescribeConfigsResourceResult).parse v) (fun x => DescribeConfigsResourceResult32.of v x t0) :=
  FParses.parses (fs := Protocol.DescribeConfigsResourceResult)
    (FParses.field hv (set := fun (t : DescribeConfigsResourceResult32) x => { t with Name := x }) par_string <|
    FParses.field hv (set := fun (t : DescribeConfigsResourceResult32) x => { t with Value := x }) par_string <|
    FParses.field hv (set := fun (t : DescribeConfigsResourceResult32) x => { t with ReadOnly := x }) par_bool <|
    FParses.optField (c := v ≥ 0 ∧ v ≤ 0) Iff.rfl (set := fun (t : DescribeConfigsResourceResult32) x => { t with IsDefault := x }) (·.IsDefault) (fun _ => rfl) par_bool <|
    FParses.optField (c := v ≥ 1) Iff.rfl (set := fun (t : DescribeConfigsResourceResult32) x => { t with ConfigSource := x }) (·.ConfigSource) (fun _ => rfl) par_int8 <|
    FParses.field hv (set := fun (t : DescribeConfigsResourceResult32) x => { t with IsSensitive := x }) par_bool <|
    FParses.optStructs (c := v ≥ 1) Iff.rfl (get := fun (t : DescribeConfigsResourceResult32) => t.Synonyms) (set := fun (t : DescribeConfigsResourceResult32) x => { t with Synonyms := x }) (fun _ => rfl) (DescribeConfigsSynonym32.parses hv {}) <|
    FParses.done)
    (by simp only [DescribeConfigsResourceResult32.decode, Dec.andThen_assoc, Dec.andThen_nop]) (Fields.distinct_nodup _ (by decide +kernel)) (fun _ _ => rfl) t0

theorem DescribeConfigsResourceResult32.shown {v : Int16} (hv : 0 ≤ v) (x : Val) (h : Protocol.DescribeConfigsResourceResult.Typed v x) :
    Protocol.DescribeConfigsResourceResult.shows v x (DescribeConfigsResourceResult32.val (DescribeConfigsResourceResult32.of v x {})) = true :=
  Shows.all hv (show_string (Fields.Typed.head (h) hv)) <|
    Shows.all hv (show_string (Fields.Typed.head (Fields.Typed.tail h) hv)) <|
    Shows.all hv (show_bool (Fields.Typed.head (Fields.Typed.tail (Fields.Typed.tail h)) hv)) <|
    Shows.between (.bool) rfl (fun hc => show_bool (Fields.Typed.head (Fields.Typed.tail (Fields.Typed.tail (Fields.Typed.tail h))) hc)) rfl <|
    Shows.since (.int8) rfl (fun hc => show_int8 (Fields.Typed.head (Fields.Typed.tail (Fields.Typed.tail (Fields.Typed.tail (Fields.Typed.tail h)))) hc)) rfl <|
    Shows.all hv (show_bool (Fields.Typed.head (Fields.Typed.tail (Fields.Typed.tail (Fields.Typed.tail (Fields.Typed.tail (Fields.Typed.tail h))))) hv)) <|
    Shows.since (ofStructs DescribeConfigsSynonym32.val) rfl (fun hc => show_structs (f := DescribeConfigsSynonym32.val) (g := fun y => DescribeConfigsSynonym32.of v y {}) (fun y hy => DescribeConfigsSynonym32.shown hv y hy) (Fields.Typed.head (Fields.Typed.tail (Fields.Typed.tail (Fields.Typed.tail (Fields.Typed.tail (Fields.Typed.tail (Fields.Typed.tail h)))))) hc)) rfl <|
    rfl

/-- `DescribeConfigsResult32` as a value of the protocol. -/
def DescribeConfigsResult32.val (t : DescribeConfigsResult32) : Val :=
  .struct [("ErrorCode", .int16 t.ErrorCode),
    ("ErrorMessage", .str (some t.ErrorMessage)),
    ("ResourceType", .int8 t.ResourceType),
    ("ResourceName", .str (some t.ResourceName)),
    ("Configs", ofStructs DescribeConfigsResourceResult32.val t.Configs)]

theorem DescribeConfigsResult32.conforms {v : Int16} (hv : 0 ≤ v) (t : DescribeConfigsResult32) :
    Protocol.DescribeConfigsResult.wire false v (DescribeConfigsResult32.val t) = DescribeConfigsResult32.wire v t :=
  Writes.eq <|
    Writes.all hv (Protocol.wire_int16 v t.ErrorCode) <|
    Writes.all hv (Protocol.wire_string v t.ErrorMessage) <|
    Writes.all hv (Protocol.wire_int8 v t.ResourceType) <|
    Writes.all hv (Protocol.wire_string v t.ResourceName) <|
    Writes.all hv (Protocol.wire_structs v (DescribeConfigsResourceResult32.conforms hv) t.Configs) <|
    Writes.done

/-- There is nothing that may not be nil. -/
def DescribeConfigsResult32.Full (_v : Int16) (_t : DescribeConfigsResult32) : Prop := True

theorem DescribeConfigsResult32.valid {v : Int16} (hv : 0 ≤ v) (t : DescribeConfigsResult32) (h : t.Fits v) (_hf : t.Full v) :
    Protocol.DescribeConfigsResult.Valid true v (DescribeConfigsResult32.val t) :=
  Valids.all trivial <|
    Valids.all (valid_string (h.ErrorMessage)) <|
    Valids.all trivial <|
    Valids.all (valid_string (h.ResourceName)) <|
    Valids.all (valid_structs (fun y h hf => DescribeConfigsResourceResult32.valid hv y h hf) (h.Configs) (fun _ _ => trivial)) <|
    trivial

/-- What `DescribeConfigsResult32` holds after reading the value `x` into `t0`. -/
def DescribeConfigsResult32.of (v : Int16) (x : Val) (t0 : DescribeConfigsResult32) : DescribeConfigsResult32 :=
  { ErrorCode := (x.get "ErrorCode").toInt16,
    ErrorMessage := (x.get "ErrorMessage").toStr,
    ResourceType := (x.get "ResourceType").toInt8,
    ResourceName := (x.get "ResourceName").toStr,
    Configs := (x.get "Configs").toSliceOr (fun y => DescribeConfigsResourceResult32.of v y {}) t0.Configs }

theorem DescribeConfigsResult32.decodes {v : Int16} (hv : 0 ≤ v) (x : Val) (h : Protocol.DescribeConfigsResult.Valid false v x) (t0 : DescribeConfigsResult32) :
    Reads (DescribeConfigsResult32.decode v t0) (Protocol.DescribeConfigsResult.wire false v x) (DescribeConfigsResult32.of v x t0) :=
  Reads.congr (((Step.field (set := fun (t : DescribeConfigsResult32) x => { t with ErrorCode := x }) (read_int16 (Fields.Valid.head (h) hv)))
      |>.andThen (Step.field (set := fun (t : DescribeConfigsResult32) x => { t with ErrorMessage := x }) (read_string (Fields.Valid.head (Fields.Valid.tail h) hv)))
      |>.andThen (Step.field (set := fun (t : DescribeConfigsResult32) x => { t with ResourceType := x }) (read_int8 (Fields.Valid.head (Fields.Valid.tail (Fields.Valid.tail h)) hv)))
      |>.andThen (Step.field (set := fun (t : DescribeConfigsResult32) x => { t with ResourceName := x }) (read_string (Fields.Valid.head (Fields.Valid.tail (Fields.Valid.tail (Fields.Valid.tail h))) hv)))
      |>.andThen (Step.readStructs (get := fun (t : DescribeConfigsResult32) => t.Configs) (set := fun (t : DescribeConfigsResult32) x => { t with Configs := x }) (fun y hy => DescribeConfigsResourceResult32.decodes hv y hy {}) (Fields.Valid.head (Fields.Valid.tail (Fields.Valid.tail (Fields.Valid.tail (Fields.Valid.tail h)))) hv)) : Step _ _ _) t0)
    (Writes.eq (fs := Protocol.DescribeConfigsResult) (v := v) (x := x) <| Writes.all hv rfl <| Writes.all hv rfl <| Writes.all hv rfl <| Writes.all hv rfl <| Writes.all hv rfl <| Writes.done).symm rfl

theorem DescribeConfigsResult32.parses {v : Int16} (hv : 0 ≤ v) (t0 : DescribeConfigsResult32) :
    Parses (DescribeConfigsResult32.decode v t0) ((Ty.struct Protocol.DescribeConfigsResult).parse v) (fun x => DescribeConfigsResult32.of v x t0) :=
  FParses.parses (fs := Protocol.DescribeConfigsResult)
    (FParses.field hv (set := fun (t : DescribeConfigsResult32) x => { t with ErrorCode := x }) par_int16 <|
    FParses.field hv (set := fun (t : DescribeConfigsResult32) x => { t with ErrorMessage := x }) par_string <|
    FParses.field hv (set := fun (t : DescribeConfigsResult32) x => { t with ResourceType := x }) par_int8 <|
    FParses.field hv (set := fun (t : DescribeConfigsResult32) x => { t with ResourceName := x }) par_string <|
    FParses.structs hv (get := fun (t : DescribeConfigsResult32) => t.Configs) (set := fun (t : DescribeConfigsResult32) x => { t with Configs := x }) (DescribeConfigsResourceResult32.parses hv {}) <|
    FParses.done)
    (by simp only [DescribeConfigsResult32.decode, Dec.andThen_assoc, Dec.andThen_nop]) (Fields.distinct_nodup _ (by decide +kernel)) (fun _ _ => rfl) t0

theorem DescribeConfigsResult32.shown {v : Int16} (hv : 0 ≤ v) (x : Val) (h : Protocol.DescribeConfigsResult.Typed v x) :
    Protocol.DescribeConfigsResult.shows v x (DescribeConfigsResult32.val (DescribeConfigsResult32.of v x {})) = true :=
  Shows.all hv (show_int16 (Fields.Typed.head (h) hv)) <|
    Shows.all hv (show_string (Fields.Typed.head (Fields.Typed.tail h) hv)) <|
    Shows.all hv (show_int8 (Fields.Typed.head (Fields.Typed.tail (Fields.Typed.tail h)) hv)) <|
    Shows.all hv (show_string (Fields.Typed.head (Fields.Typed.tail (Fields.Typed.tail (Fields.Typed.tail h))) hv)) <|
    Shows.all hv (show_structs (f := DescribeConfigsResourceResult32.val) (g := fun y => DescribeConfigsResourceResult32.of v y {}) (fun y hy => DescribeConfigsResourceResult32.shown hv y hy) (Fields.Typed.head (Fields.Typed.tail (Fields.Typed.tail (Fields.Typed.tail (Fields.Typed.tail h)))) hv)) <|
    rfl

/-- `DescribeConfigsResponse` as a value of the protocol. -/
def DescribeConfigsResponse.val (t : DescribeConfigsResponse) : Val :=
  .struct [("ThrottleTimeMs", .int32 t.ThrottleTimeMs),
    ("Results", ofStructs DescribeConfigsResult32.val t.Results)]

theorem DescribeConfigsResponse.conforms {v : Int16} (hv : 0 ≤ v) (t : DescribeConfigsResponse) :
    Protocol.DescribeConfigsResponse.wire false v (DescribeConfigsResponse.val t) = DescribeConfigsResponse.wire v t :=
  Writes.eq <|
    Writes.all hv (Protocol.wire_int32 v t.ThrottleTimeMs) <|
    Writes.all hv (Protocol.wire_structs v (DescribeConfigsResult32.conforms hv) t.Results) <|
    Writes.done

/-- There is nothing that may not be nil. -/
def DescribeConfigsResponse.Full (_v : Int16) (_t : DescribeConfigsResponse) : Prop := True

theorem DescribeConfigsResponse.valid {v : Int16} (hv : 0 ≤ v) (t : DescribeConfigsResponse) (h : t.Fits v) (_hf : t.Full v) :
    Protocol.DescribeConfigsResponse.Valid true v (DescribeConfigsResponse.val t) :=
  Valids.all trivial <|
    Valids.all (valid_structs (fun y h hf => DescribeConfigsResult32.valid hv y h hf) (h.Results) (fun _ _ => trivial)) <|
    trivial

/-- What `DescribeConfigsResponse` holds after reading the value `x` into `t0`. -/
def DescribeConfigsResponse.of (v : Int16) (x : Val) (t0 : DescribeConfigsResponse) : DescribeConfigsResponse :=
  { ThrottleTimeMs := (x.get "ThrottleTimeMs").toInt32,
    Results := (x.get "Results").toSliceOr (fun y => DescribeConfigsResult32.of v y {}) t0.Results }

theorem DescribeConfigsResponse.decodes {v : Int16} (hv : 0 ≤ v) (x : Val) (h : Protocol.DescribeConfigsResponse.Valid false v x) (t0 : DescribeConfigsResponse) :
    Reads (DescribeConfigsResponse.decode v t0) (Protocol.DescribeConfigsResponse.wire false v x) (DescribeConfigsResponse.of v x t0) :=
  Reads.congr (((Step.field (set := fun (t : DescribeConfigsResponse) x => { t with ThrottleTimeMs := x }) (read_int32 (Fields.Valid.head (h) hv)))
      |>.andThen (Step.readStructs (get := fun (t : DescribeConfigsResponse) => t.Results) (set := fun (t : DescribeConfigsResponse) x => { t with Results := x }) (fun y hy => DescribeConfigsResult32.decodes hv y hy {}) (Fields.Valid.head (Fields.Valid.tail h) hv)) : Step _ _ _) t0)
    (Writes.eq (fs := Protocol.DescribeConfigsResponse) (v := v) (x := x) <| Writes.all hv rfl <| Writes.all hv rfl <| Writes.done).symm rfl

theorem DescribeConfigsResponse.parses {v : Int16} (hv : 0 ≤ v) (t0 : DescribeConfigsResponse) :
    Parses (DescribeConfigsResponse.decode v t0) ((Ty.struct Protocol.DescribeConfigsResponse).parse v) (fun x => DescribeConfigsResponse.of v x t0) :=
  FParses.parses (fs := Protocol.DescribeConfigsResponse)
    (FParses.field hv (set := fun (t : DescribeConfigsResponse) x => { t with ThrottleTimeMs := x }) par_int32 <|
    FParses.structs hv (get := fun (t : DescribeConfigsResponse) => t.Results) (set := fun (t : DescribeConfigsResponse) x => { t with Results := x }) (DescribeConfigsResult32.parses hv {}) <|
    FParses.done)
    (by simp only [DescribeConfigsResponse.decode, Dec.andThen_nop]) (Fields.distinct_nodup _ (by decide +kernel)) (fun _ _ => rfl) t0

theorem DescribeConfigsResponse.shown {v : Int16} (hv : 0 ≤ v) (x : Val) (h : Protocol.DescribeConfigsResponse.Typed v x) :
    Protocol.DescribeConfigsResponse.shows v x (DescribeConfigsResponse.val (DescribeConfigsResponse.of v x {})) = true :=
  Shows.all hv (show_int32 (Fields.Typed.head (h) hv)) <|
    Shows.all hv (show_structs (f := DescribeConfigsResult32.val) (g := fun y => DescribeConfigsResult32.of v y {}) (fun y hy => DescribeConfigsResult32.shown hv y hy) (Fields.Typed.head (Fields.Typed.tail h) hv)) <|
    rfl

end Kafka.Msg
