import Verif.Message.Layout
import Verif.Gen.Model.DescribeConfigs
/-!
Generated by tools/gen_messages.py: specification of the DescribeConfigs messages.
-/
namespace Kafka.Msg

/-- Wire format of `DescribeConfigsResource32`. -/
def DescribeConfigsResource32.wire (_version : Int16) (t : DescribeConfigsResource32) : List Byte :=
  Wire.int8 t.ResourceType ++
  Wire.string t.ResourceName ++
  Wire.stringArray t.ConfigurationKeys

/-- Lengths are representable. -/
structure DescribeConfigsResource32.Fits (version : Int16) (t : DescribeConfigsResource32) : Prop where
  ResourceName : FitsString t.ResourceName
  ConfigurationKeys : FitsStrings t.ConfigurationKeys

/-- The value after `t` has been decoded into `t0`. -/
def DescribeConfigsResource32.seen (_version : Int16) (t _t0 : DescribeConfigsResource32) : DescribeConfigsResource32 :=
  { ResourceType := t.ResourceType,
    ResourceName := t.ResourceName,
    ConfigurationKeys := t.ConfigurationKeys }

/-- Nothing can be lost. -/
def DescribeConfigsResource32.Canon (_version : Int16) (_t : DescribeConfigsResource32) : Prop := True

/-- The specification of `DescribeConfigsResource32`. -/
def DescribeConfigsResource32.layout : Layout DescribeConfigsResource32.type :=
  { wire := DescribeConfigsResource32.wire, Fits := DescribeConfigsResource32.Fits, seen := DescribeConfigsResource32.seen, Canon := DescribeConfigsResource32.Canon }

/-- Wire format of `DescribeConfigsRequest`. -/
def DescribeConfigsRequest.wire (version : Int16) (t : DescribeConfigsRequest) : List Byte :=
  Wire.array (DescribeConfigsResource32.wire version) t.Resources ++
  Wire.when (version ≥ 1) (Wire.bool t.IncludeSynoyms)

/-- Lengths are representable. -/
structure DescribeConfigsRequest.Fits (version : Int16) (t : DescribeConfigsRequest) : Prop where
  Resources : FitsAll (DescribeConfigsResource32.Fits version) t.Resources

/-- The value after `t` has been decoded into `t0`. -/
def DescribeConfigsRequest.seen (version : Int16) (t t0 : DescribeConfigsRequest) : DescribeConfigsRequest :=
  { Resources := some (t.Resources.elems.map fun x => x.seen version {}),
    IncludeSynoyms := if version ≥ 1 then t.IncludeSynoyms else t0.IncludeSynoyms }

/-- Nothing in `t` is lost at this version. -/
structure DescribeConfigsRequest.Canon (version : Int16) (t : DescribeConfigsRequest) : Prop where
  Resources : CanonAll (DescribeConfigsResource32.Canon version) t.Resources
  IncludeSynoyms : ¬(version ≥ 1) → t.IncludeSynoyms = false

/-- The specification of `DescribeConfigsRequest`. -/
def DescribeConfigsRequest.layout : Layout DescribeConfigsRequest.type :=
  { wire := DescribeConfigsRequest.wire, Fits := DescribeConfigsRequest.Fits, seen := DescribeConfigsRequest.seen, Canon := DescribeConfigsRequest.Canon }

/-- Wire format of `DescribeConfigsSynonym32`. -/
def DescribeConfigsSynonym32.wire (version : Int16) (t : DescribeConfigsSynonym32) : List Byte :=
  Wire.when (version ≥ 1) (Wire.string t.Name) ++
  Wire.when (version ≥ 1) (Wire.string t.Value) ++
  Wire.when (version ≥ 1) (Wire.int8 t.Source)

/-- Lengths are representable. -/
structure DescribeConfigsSynonym32.Fits (version : Int16) (t : DescribeConfigsSynonym32) : Prop where
  Name : version ≥ 1 → FitsString t.Name
  Value : version ≥ 1 → FitsString t.Value

/-- The value after `t` has been decoded into `t0`. -/
def DescribeConfigsSynonym32.seen (version : Int16) (t t0 : DescribeConfigsSynonym32) : DescribeConfigsSynonym32 :=
  { Name := if version ≥ 1 then t.Name else t0.Name,
    Value := if version ≥ 1 then t.Value else t0.Value,
    Source := if version ≥ 1 then t.Source else t0.Source }

/-- Nothing in `t` is lost at this version. -/
structure DescribeConfigsSynonym32.Canon (version : Int16) (t : DescribeConfigsSynonym32) : Prop where
  Name : ¬(version ≥ 1) → t.Name = []
  Value : ¬(version ≥ 1) → t.Value = []
  Source : ¬(version ≥ 1) → t.Source = 0

/-- The specification of `DescribeConfigsSynonym32`. -/
def DescribeConfigsSynonym32.layout : Layout DescribeConfigsSynonym32.type :=
  { wire := DescribeConfigsSynonym32.wire, Fits := DescribeConfigsSynonym32.Fits, seen := DescribeConfigsSynonym32.seen, Canon := DescribeConfigsSynonym32.Canon }

/-- Wire format of `DescribeConfigsResourceResult32`. -/
def DescribeConfigsResourceResult32.wire (version : Int16) (t : DescribeConfigsResourceResult32) : List Byte :=
  Wire.string t.Name ++
  Wire.string t.Value ++
  Wire.bool t.ReadOnly ++
  Wire.when (version ≥ 0 ∧ version ≤ 0) (Wire.bool t.IsDefault) ++
  Wire.when (version ≥ 1) (Wire.int8 t.ConfigSource) ++
  Wire.bool t.IsSensitive ++
  Wire.when (version ≥ 1) (Wire.array (DescribeConfigsSynonym32.wire version) t.Synonyms)

/-- Lengths are representable. -/
structure DescribeConfigsResourceResult32.Fits (version : Int16) (t : DescribeConfigsResourceResult32) : Prop where
  Name : FitsString t.Name
  Value : FitsString t.Value
  Synonyms : version ≥ 1 → FitsAll (DescribeConfigsSynonym32.Fits version) t.Synonyms

/-- The value after `t` has been decoded into `t0`. -/
def DescribeConfigsResourceResult32.seen (version : Int16) (t t0 : DescribeConfigsResourceResult32) : DescribeConfigsResourceResult32 :=
  { Name := t.Name,
    Value := t.Value,
    ReadOnly := t.ReadOnly,
    IsDefault := if version ≥ 0 ∧ version ≤ 0 then t.IsDefault else t0.IsDefault,
    ConfigSource := if version ≥ 1 then t.ConfigSource else t0.ConfigSource,
    IsSensitive := t.IsSensitive,
    Synonyms := if version ≥ 1 then some (t.Synonyms.elems.map fun x => x.seen version {}) else t0.Synonyms }

/-- Nothing in `t` is lost at this version. -/
structure DescribeConfigsResourceResult32.Canon (version : Int16) (t : DescribeConfigsResourceResult32) : Prop where
  IsDefault : ¬(version ≥ 0 ∧ version ≤ 0) → t.IsDefault = false
  ConfigSource : ¬(version ≥ 1) → t.ConfigSource = 0
  Synonyms : (version ≥ 1 → CanonAll (DescribeConfigsSynonym32.Canon version) t.Synonyms) ∧ (¬(version ≥ 1) → t.Synonyms = none)

/-- The specification of `DescribeConfigsResourceResult32`. -/
def DescribeConfigsResourceResult32.layout : Layout DescribeConfigsResourceResult32.type :=
  { wire := DescribeConfigsResourceResult32.wire, Fits := DescribeConfigsResourceResult32.Fits, seen := DescribeConfigsResourceResult32.seen, Canon := DescribeConfigsResourceResult32.Canon }

/-- Wire format of `DescribeConfigsResult32`. -/
def DescribeConfigsResult32.wire (version : Int16) (t : DescribeConfigsResult32) : List Byte :=
  Wire.int16 t.ErrorCode ++
  Wire.string t.ErrorMessage ++
  Wire.int8 t.ResourceType ++
  Wire.string t.ResourceName ++
  Wire.array (DescribeConfigsResourceResult32.wire version) t.Configs

/-- Lengths are representable. -/
structure DescribeConfigsResult32.Fits (version : Int16) (t : DescribeConfigsResult32) : Prop where
  ErrorMessage : FitsString t.ErrorMessage
  ResourceName : FitsString t.ResourceName
  Configs : FitsAll (DescribeConfigsResourceResult32.Fits version) t.Configs

/-- The value after `t` has been decoded into `t0`. -/
def DescribeConfigsResult32.seen (version : Int16) (t _t0 : DescribeConfigsResult32) : DescribeConfigsResult32 :=
  { ErrorCode := t.ErrorCode,
    ErrorMessage := t.ErrorMessage,
    ResourceType := t.ResourceType,
    ResourceName := t.ResourceName,
    Configs := some (t.Configs.elems.map fun x => x.seen version {}) }

/-- Nothing in `t` is lost at this version. -/
structure DescribeConfigsResult32.Canon (version : Int16) (t : DescribeConfigsResult32) : Prop where
  Configs : CanonAll (DescribeConfigsResourceResult32.Canon version) t.Configs

/-- The specification of `DescribeConfigsResult32`. -/
def DescribeConfigsResult32.layout : Layout DescribeConfigsResult32.type :=
  { wire := DescribeConfigsResult32.wire, Fits := DescribeConfigsResult32.Fits, seen := DescribeConfigsResult32.seen, Canon := DescribeConfigsResult32.Canon }

/-- Wire format of `DescribeConfigsResponse`. -/
def DescribeConfigsResponse.wire (version : Int16) (t : DescribeConfigsResponse) : List Byte :=
  Wire.int32 t.ThrottleTimeMs ++
  Wire.array (DescribeConfigsResult32.wire version) t.Results

/-- Lengths are representable. -/
structure DescribeConfigsResponse.Fits (version : Int16) (t : DescribeConfigsResponse) : Prop where
  Results : FitsAll (DescribeConfigsResult32.Fits version) t.Results

/-- The value after `t` has been decoded into `t0`. -/
def DescribeConfigsResponse.seen (version : Int16) (t _t0 : DescribeConfigsResponse) : DescribeConfigsResponse :=
  { ThrottleTimeMs := t.ThrottleTimeMs,
    Results := some (t.Results.elems.map fun x => x.seen version {}) }

/-- Nothing in `t` is lost at this version. -/
structure DescribeConfigsResponse.Canon (version : Int16) (t : DescribeConfigsResponse) : Prop where
  Results : CanonAll (DescribeConfigsResult32.Canon version) t.Results

/-- The specification of `DescribeConfigsResponse`. -/
def DescribeConfigsResponse.layout : Layout DescribeConfigsResponse.type :=
  { wire := DescribeConfigsResponse.wire, Fits := DescribeConfigsResponse.Fits, seen := DescribeConfigsResponse.seen, Canon := DescribeConfigsResponse.Canon }

end Kafka.Msg
