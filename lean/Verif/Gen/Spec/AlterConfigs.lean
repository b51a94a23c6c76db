import Verif.Message.Layout
import Verif.Gen.Model.AlterConfigs
/-!
Generated by tools/gen_messages.py: specification of the AlterConfigs messages.
-/
namespace Kafka.Msg

/-- Wire format of `AlterableConfig33`. -/
def AlterableConfig33.wire (_version : Int16) (t : AlterableConfig33) : List Byte :=
  Wire.string t.Name ++
  Wire.string t.Value

/-- Lengths are representable. -/
structure AlterableConfig33.Fits (version : Int16) (t : AlterableConfig33) : Prop where
  Name : FitsString t.Name
  Value : FitsString t.Value

/-- The value after `t` has been decoded into `t0`. -/
def AlterableConfig33.seen (_version : Int16) (t _t0 : AlterableConfig33) : AlterableConfig33 :=
  { Name := t.Name,
    Value := t.Value }

/-- Nothing can be lost. -/
def AlterableConfig33.Canon (_version : Int16) (_t : AlterableConfig33) : Prop := True

/-- The specification of `AlterableConfig33`. -/
def AlterableConfig33.layout : Layout AlterableConfig33.type :=
  { wire := AlterableConfig33.wire, Fits := AlterableConfig33.Fits, seen := AlterableConfig33.seen, Canon := AlterableConfig33.Canon }

/-- Wire format of `AlterConfigsResource33`. -/
def AlterConfigsResource33.wire (version : Int16) (t : AlterConfigsResource33) : List Byte :=
  Wire.int8 t.ResourceType ++
  Wire.string t.ResourceName ++
  Wire.array (AlterableConfig33.wire version) t.Configs

/-- Lengths are representable. -/
structure AlterConfigsResource33.Fits (version : Int16) (t : AlterConfigsResource33) : Prop where
  ResourceName : FitsString t.ResourceName
  Configs : FitsAll (AlterableConfig33.Fits version) t.Configs

/-- The value after `t` has been decoded into `t0`. -/
def AlterConfigsResource33.seen (version : Int16) (t _t0 : AlterConfigsResource33) : AlterConfigsResource33 :=
  { ResourceType := t.ResourceType,
    ResourceName := t.ResourceName,
    Configs := some (t.Configs.elems.map fun x => x.seen version {}) }

/-- Nothing in `t` is lost at this version. -/
structure AlterConfigsResource33.Canon (version : Int16) (t : AlterConfigsResource33) : Prop where
  Configs : CanonAll (AlterableConfig33.Canon version) t.Configs

/-- The specification of `AlterConfigsResource33`. -/
def AlterConfigsResource33.layout : Layout AlterConfigsResource33.type :=
  { wire := AlterConfigsResource33.wire, Fits := AlterConfigsResource33.Fits, seen := AlterConfigsResource33.seen, Canon := AlterConfigsResource33.Canon }

/-- Wire format of `AlterConfigsRequest`. -/
def AlterConfigsRequest.wire (version : Int16) (t : AlterConfigsRequest) : List Byte :=
  Wire.array (AlterConfigsResource33.wire version) t.Resources ++
  Wire.bool t.ValidateOnly

/-- Lengths are representable. -/
structure AlterConfigsRequest.Fits (version : Int16) (t : AlterConfigsRequest) : Prop where
  Resources : FitsAll (AlterConfigsResource33.Fits version) t.Resources

/-- The value after `t` has been decoded into `t0`. -/
def AlterConfigsRequest.seen (version : Int16) (t _t0 : AlterConfigsRequest) : AlterConfigsRequest :=
  { Resources := some (t.Resources.elems.map fun x => x.seen version {}),
    ValidateOnly := t.ValidateOnly }

/-- Nothing in `t` is lost at this version. -/
structure AlterConfigsRequest.Canon (version : Int16) (t : AlterConfigsRequest) : Prop where
  Resources : CanonAll (AlterConfigsResource33.Canon version) t.Resources

/-- The specification of `AlterConfigsRequest`. -/
def AlterConfigsRequest.layout : Layout AlterConfigsRequest.type :=
  { wire := AlterConfigsRequest.wire, Fits := AlterConfigsRequest.Fits, seen := AlterConfigsRequest.seen, Canon := AlterConfigsRequest.Canon }

/-- Wire format of `AlterConfigsResourceResponse33`. -/
def AlterConfigsResourceResponse33.wire (_version : Int16) (t : AlterConfigsResourceResponse33) : List Byte :=
  Wire.int16 t.ErrorCode ++
  Wire.string t.ErrorMessage ++
  Wire.int8 t.ResourceType ++
  Wire.string t.ResourceName

/-- Lengths are representable. -/
structure AlterConfigsResourceResponse33.Fits (version : Int16) (t : AlterConfigsResourceResponse33) : Prop where
  ErrorMessage : FitsString t.ErrorMessage
  ResourceName : FitsString t.ResourceName

/-- The value after `t` has been decoded into `t0`. -/
def AlterConfigsResourceResponse33.seen (_version : Int16) (t _t0 : AlterConfigsResourceResponse33) : AlterConfigsResourceResponse33 :=
  { ErrorCode := t.ErrorCode,
    ErrorMessage := t.ErrorMessage,
    ResourceType := t.ResourceType,
    ResourceName := t.ResourceName }

/-- Nothing can be lost. -/
def AlterConfigsResourceResponse33.Canon (_version : Int16) (_t : AlterConfigsResourceResponse33) : Prop := True

/-- The specification of `AlterConfigsResourceResponse33`. -/
def AlterConfigsResourceResponse33.layout : Layout AlterConfigsResourceResponse33.type :=
  { wire := AlterConfigsResourceResponse33.wire, Fits := AlterConfigsResourceResponse33.Fits, seen := AlterConfigsResourceResponse33.seen, Canon := AlterConfigsResourceResponse33.Canon }

/-- Wire format of `AlterConfigsResponse`. -/
def AlterConfigsResponse.wire (version : Int16) (t : AlterConfigsResponse) : List Byte :=
  Wire.int32 t.ThrottleTimeMs ++
  Wire.array (AlterConfigsResourceResponse33.wire version) t.Responses

/-- Lengths are representable. -/
structure AlterConfigsResponse.Fits (version : Int16) (t : AlterConfigsResponse) : Prop where
  Responses : FitsAll (AlterConfigsResourceResponse33.Fits version) t.Responses

/-- The value after `t` has been decoded into `t0`. -/
def AlterConfigsResponse.seen (version : Int16) (t _t0 : AlterConfigsResponse) : AlterConfigsResponse :=
  { ThrottleTimeMs := t.ThrottleTimeMs,
    Responses := some (t.Responses.elems.map fun x => x.seen version {}) }

/-- Nothing in `t` is lost at this version. -/
structure AlterConfigsResponse.Canon (version : Int16) (t : AlterConfigsResponse) : Prop where
  Responses : CanonAll (AlterConfigsResourceResponse33.Canon version) t.Responses

/-- The specification of `AlterConfigsResponse`. -/
def AlterConfigsResponse.layout : Layout AlterConfigsResponse.type :=
  { wire := AlterConfigsResponse.wire, Fits := AlterConfigsResponse.Fits, seen := AlterConfigsResponse.seen, Canon := AlterConfigsResponse.Canon }

end Kafka.Msg
