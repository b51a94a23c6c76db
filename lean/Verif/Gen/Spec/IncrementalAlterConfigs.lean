import Verif.Message.Layout
import Verif.Gen.Model.IncrementalAlterConfigs
/-!
Generated by tools/gen_messages.py: specification of the IncrementalAlterConfigs messages.
-/
namespace Kafka.Msg

/-- Wire format of `AlterableConfig44`. -/
def AlterableConfig44.wire (_version : Int16) (t : AlterableConfig44) : List Byte :=
  Wire.string t.Name ++
  Wire.int8 t.ConfigOperation ++
  Wire.string t.Value

/-- Lengths are representable. -/
structure AlterableConfig44.Fits (version : Int16) (t : AlterableConfig44) : Prop where
  Name : FitsString t.Name
  Value : FitsString t.Value

/-- The value after `t` has been decoded into `t0`. -/
def AlterableConfig44.seen (_version : Int16) (t _t0 : AlterableConfig44) : AlterableConfig44 :=
  { Name := t.Name,
    ConfigOperation := t.ConfigOperation,
    Value := t.Value }

/-- Nothing can be lost. -/
def AlterableConfig44.Canon (_version : Int16) (_t : AlterableConfig44) : Prop := True

/-- The specification of `AlterableConfig44`. -/
def AlterableConfig44.layout : Layout AlterableConfig44.type :=
  { wire := AlterableConfig44.wire, Fits := AlterableConfig44.Fits, seen := AlterableConfig44.seen, Canon := AlterableConfig44.Canon }

/-- Wire format of `AlterConfigsResource44`. -/
def AlterConfigsResource44.wire (version : Int16) (t : AlterConfigsResource44) : List Byte :=
  Wire.int8 t.ResourceType ++
  Wire.string t.ResourceName ++
  Wire.array (AlterableConfig44.wire version) t.Configs

/-- Lengths are representable. -/
structure AlterConfigsResource44.Fits (version : Int16) (t : AlterConfigsResource44) : Prop where
  ResourceName : FitsString t.ResourceName
  Configs : FitsAll (AlterableConfig44.Fits version) t.Configs

/-- The value after `t` has been decoded into `t0`. -/
def AlterConfigsResource44.seen (version : Int16) (t _t0 : AlterConfigsResource44) : AlterConfigsResource44 :=
  { ResourceType := t.ResourceType,
    ResourceName := t.ResourceName,
    Configs := some (t.Configs.elems.map fun x => x.seen version {}) }

/-- Nothing in `t` is lost at this version. -/
structure AlterConfigsResource44.Canon (version : Int16) (t : AlterConfigsResource44) : Prop where
  Configs : CanonAll (AlterableConfig44.Canon version) t.Configs

/-- The specification of `AlterConfigsResource44`. -/
def AlterConfigsResource44.layout : Layout AlterConfigsResource44.type :=
  { wire := AlterConfigsResource44.wire, Fits := AlterConfigsResource44.Fits, seen := AlterConfigsResource44.seen, Canon := AlterConfigsResource44.Canon }

/-- Wire format of `IncrementalAlterConfigsRequest`. -/
def IncrementalAlterConfigsRequest.wire (version : Int16) (t : IncrementalAlterConfigsRequest) : List Byte :=
  Wire.array (AlterConfigsResource44.wire version) t.Resources ++
  Wire.bool t.ValidateOnly

/-- Lengths are representable. -/
structure IncrementalAlterConfigsRequest.Fits (version : Int16) (t : IncrementalAlterConfigsRequest) : Prop where
  Resources : FitsAll (AlterConfigsResource44.Fits version) t.Resources

/-- The value after `t` has been decoded into `t0`. -/
def IncrementalAlterConfigsRequest.seen (version : Int16) (t _t0 : IncrementalAlterConfigsRequest) : IncrementalAlterConfigsRequest :=
  { Resources := some (t.Resources.elems.map fun x => x.seen version {}),
    ValidateOnly := t.ValidateOnly }

/-- Nothing in `t` is lost at this version. -/
structure IncrementalAlterConfigsRequest.Canon (version : Int16) (t : IncrementalAlterConfigsRequest) : Prop where
  Resources : CanonAll (AlterConfigsResource44.Canon version) t.Resources

/-- The specification of `IncrementalAlterConfigsRequest`. -/
def IncrementalAlterConfigsRequest.layout : Layout IncrementalAlterConfigsRequest.type :=
  { wire := IncrementalAlterConfigsRequest.wire, Fits := IncrementalAlterConfigsRequest.Fits, seen := IncrementalAlterConfigsRequest.seen, Canon := IncrementalAlterConfigsRequest.Canon }

/-- Wire format of `AlterConfigsResourceResponse44`. -/
def AlterConfigsResourceResponse44.wire (_version : Int16) (t : AlterConfigsResourceResponse44) : List Byte :=
  Wire.int16 t.ErrorCode ++
  Wire.string t.ErrorMessage ++
  Wire.int8 t.ResourceType ++
  Wire.string t.ResourceName

/-- Lengths are representable. -/
structure AlterConfigsResourceResponse44.Fits (version : Int16) (t : AlterConfigsResourceResponse44) : Prop where
  ErrorMessage : FitsString t.ErrorMessage
  ResourceName : FitsString t.ResourceName

/-- The value after `t` has been decoded into `t0`. -/
def AlterConfigsResourceResponse44.seen (_version : Int16) (t _t0 : AlterConfigsResourceResponse44) : AlterConfigsResourceResponse44 :=
  { ErrorCode := t.ErrorCode,
    ErrorMessage := t.ErrorMessage,
    ResourceType := t.ResourceType,
    ResourceName := t.ResourceName }

/-- Nothing can be lost. -/
def AlterConfigsResourceResponse44.Canon (_version : Int16) (_t : AlterConfigsResourceResponse44) : Prop := True

/-- The specification of `AlterConfigsResourceResponse44`. -/
def AlterConfigsResourceResponse44.layout : Layout AlterConfigsResourceResponse44.type :=
  { wire := AlterConfigsResourceResponse44.wire, Fits := AlterConfigsResourceResponse44.Fits, seen := AlterConfigsResourceResponse44.seen, Canon := AlterConfigsResourceResponse44.Canon }

/-- Wire format of `IncrementalAlterConfigsResponse`. -/
def IncrementalAlterConfigsResponse.wire (version : Int16) (t : IncrementalAlterConfigsResponse) : List Byte :=
  Wire.int32 t.ThrottleTimeMs ++
  Wire.array (AlterConfigsResourceResponse44.wire version) t.Responses

/-- Lengths are representable. -/
structure IncrementalAlterConfigsResponse.Fits (version : Int16) (t : IncrementalAlterConfigsResponse) : Prop where
  Responses : FitsAll (AlterConfigsResourceResponse44.Fits version) t.Responses

/-- The value after `t` has been decoded into `t0`. -/
def IncrementalAlterConfigsResponse.seen (version : Int16) (t _t0 : IncrementalAlterConfigsResponse) : IncrementalAlterConfigsResponse :=
  { ThrottleTimeMs := t.ThrottleTimeMs,
    Responses := some (t.Responses.elems.map fun x => x.seen version {}) }

/-- Nothing in `t` is lost at this version. -/
structure IncrementalAlterConfigsResponse.Canon (version : Int16) (t : IncrementalAlterConfigsResponse) : Prop where
  Responses : CanonAll (AlterConfigsResourceResponse44.Canon version) t.Responses

/-- The specification of `IncrementalAlterConfigsResponse`. -/
def IncrementalAlterConfigsResponse.layout : Layout IncrementalAlterConfigsResponse.type :=
  { wire := IncrementalAlterConfigsResponse.wire, Fits := IncrementalAlterConfigsResponse.Fits, seen := IncrementalAlterConfigsResponse.seen, Canon := IncrementalAlterConfigsResponse.Canon }

end Kafka.Msg
