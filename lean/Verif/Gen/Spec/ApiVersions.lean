import Verif.Message.Layout
import Verif.Gen.Model.ApiVersions
/-!
Generated by tools/gen_messages.py: specification of the ApiVersions messages.
-/
namespace Kafka.Msg

/-- Wire format of `ApiVersionsRequest`. -/
def ApiVersionsRequest.wire (version : Int16) (t : ApiVersionsRequest) : List Byte :=
  Wire.when (version ≥ 3) (Wire.string t.ClientSoftwareName) ++
  Wire.when (version ≥ 3) (Wire.string t.ClientSoftwareVersion)

/-- Lengths are representable. -/
structure ApiVersionsRequest.Fits (version : Int16) (t : ApiVersionsRequest) : Prop where
  ClientSoftwareName : version ≥ 3 → FitsString t.ClientSoftwareName
  ClientSoftwareVersion : version ≥ 3 → FitsString t.ClientSoftwareVersion

/-- The value after `t` has been decoded into `t0`. -/
def ApiVersionsRequest.seen (version : Int16) (t t0 : ApiVersionsRequest) : ApiVersionsRequest :=
  { ClientSoftwareName := if version ≥ 3 then t.ClientSoftwareName else t0.ClientSoftwareName,
    ClientSoftwareVersion := if version ≥ 3 then t.ClientSoftwareVersion else t0.ClientSoftwareVersion }

/-- Nothing in `t` is lost at this version. -/
structure ApiVersionsRequest.Canon (version : Int16) (t : ApiVersionsRequest) : Prop where
  ClientSoftwareName : ¬(version ≥ 3) → t.ClientSoftwareName = []
  ClientSoftwareVersion : ¬(version ≥ 3) → t.ClientSoftwareVersion = []

/-- The specification of `ApiVersionsRequest`. -/
def ApiVersionsRequest.layout : Layout ApiVersionsRequest.type :=
  { wire := ApiVersionsRequest.wire, Fits := ApiVersionsRequest.Fits, seen := ApiVersionsRequest.seen, Canon := ApiVersionsRequest.Canon }

/-- Wire format of `ApiVersionsResponseKey18`. -/
def ApiVersionsResponseKey18.wire (_version : Int16) (t : ApiVersionsResponseKey18) : List Byte :=
  Wire.int16 t.ApiKey ++
  Wire.int16 t.MinVersion ++
  Wire.int16 t.MaxVersion

/-- No field has a length prefix. -/
def ApiVersionsResponseKey18.Fits (_version : Int16) (_t : ApiVersionsResponseKey18) : Prop := True

/-- The value after `t` has been decoded into `t0`. -/
def ApiVersionsResponseKey18.seen (_version : Int16) (t _t0 : ApiVersionsResponseKey18) : ApiVersionsResponseKey18 :=
  { ApiKey := t.ApiKey,
    MinVersion := t.MinVersion,
    MaxVersion := t.MaxVersion }

/-- Nothing can be lost. -/
def ApiVersionsResponseKey18.Canon (_version : Int16) (_t : ApiVersionsResponseKey18) : Prop := True

/-- The specification of `ApiVersionsResponseKey18`. -/
def ApiVersionsResponseKey18.layout : Layout ApiVersionsResponseKey18.type :=
  { wire := ApiVersionsResponseKey18.wire, Fits := ApiVersionsResponseKey18.Fits, seen := ApiVersionsResponseKey18.seen, Canon := ApiVersionsResponseKey18.Canon }

/-- Wire format of `ApiVersionsResponse`. -/
def ApiVersionsResponse.wire (version : Int16) (t : ApiVersionsResponse) : List Byte :=
  Wire.int16 t.ErrorCode ++
  Wire.array (ApiVersionsResponseKey18.wire version) t.ApiKeys ++
  Wire.when (version ≥ 1) (Wire.int32 t.ThrottleTimeMs)

/-- Lengths are representable. -/
structure ApiVersionsResponse.Fits (version : Int16) (t : ApiVersionsResponse) : Prop where
  ApiKeys : FitsAll (ApiVersionsResponseKey18.Fits version) t.ApiKeys

/-- The value after `t` has been decoded into `t0`. -/
def ApiVersionsResponse.seen (version : Int16) (t t0 : ApiVersionsResponse) : ApiVersionsResponse :=
  { ErrorCode := t.ErrorCode,
    ApiKeys := some (t.ApiKeys.elems.map fun x => x.seen version {}),
    ThrottleTimeMs := if version ≥ 1 then t.ThrottleTimeMs else t0.ThrottleTimeMs }

/-- Nothing in `t` is lost at this version. -/
structure ApiVersionsResponse.Canon (version : Int16) (t : ApiVersionsResponse) : Prop where
  ApiKeys : CanonAll (ApiVersionsResponseKey18.Canon version) t.ApiKeys
  ThrottleTimeMs : ¬(version ≥ 1) → t.ThrottleTimeMs = 0

/-- The specification of `ApiVersionsResponse`. -/
def ApiVersionsResponse.layout : Layout ApiVersionsResponse.type :=
  { wire := ApiVersionsResponse.wire, Fits := ApiVersionsResponse.Fits, seen := ApiVersionsResponse.seen, Canon := ApiVersionsResponse.Canon }

end Kafka.Msg
