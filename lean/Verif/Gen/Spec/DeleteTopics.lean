import Verif.Message.Layout
import Verif.Gen.Model.DeleteTopics
/-!
Generated by tools/gen_messages.py: specification of the DeleteTopics messages.
-/
namespace Kafka.Msg

/-- Wire format of `DeleteTopicsRequest`. -/
def DeleteTopicsRequest.wire (_version : Int16) (t : DeleteTopicsRequest) : List Byte :=
  Wire.stringArray t.TopicNames ++
  Wire.int32 t.TimeoutMs

/-- Lengths are representable. -/
structure DeleteTopicsRequest.Fits (version : Int16) (t : DeleteTopicsRequest) : Prop where
  TopicNames : FitsStrings t.TopicNames

/-- The value after `t` has been decoded into `t0`. -/
def DeleteTopicsRequest.seen (_version : Int16) (t _t0 : DeleteTopicsRequest) : DeleteTopicsRequest :=
  { TopicNames := t.TopicNames,
    TimeoutMs := t.TimeoutMs }

/-- Nothing can be lost. -/
def DeleteTopicsRequest.Canon (_version : Int16) (_t : DeleteTopicsRequest) : Prop := True

/-- The specification of `DeleteTopicsRequest`. -/
def DeleteTopicsRequest.layout : Layout DeleteTopicsRequest.type :=
  { wire := DeleteTopicsRequest.wire, Fits := DeleteTopicsRequest.Fits, seen := DeleteTopicsRequest.seen, Canon := DeleteTopicsRequest.Canon }

/-- Wire format of `DeletableTopicResult20`. -/
def DeletableTopicResult20.wire (_version : Int16) (t : DeletableTopicResult20) : List Byte :=
  Wire.string t.Name ++
  Wire.int16 t.ErrorCode

/-- Lengths are representable. -/
structure DeletableTopicResult20.Fits (version : Int16) (t : DeletableTopicResult20) : Prop where
  Name : FitsString t.Name

/-- The value after `t` has been decoded into `t0`. -/
def DeletableTopicResult20.seen (_version : Int16) (t _t0 : DeletableTopicResult20) : DeletableTopicResult20 :=
  { Name := t.Name,
    ErrorCode := t.ErrorCode }

/-- Nothing can be lost. -/
def DeletableTopicResult20.Canon (_version : Int16) (_t : DeletableTopicResult20) : Prop := True

/-- The specification of `DeletableTopicResult20`. -/
def DeletableTopicResult20.layout : Layout DeletableTopicResult20.type :=
  { wire := DeletableTopicResult20.wire, Fits := DeletableTopicResult20.Fits, seen := DeletableTopicResult20.seen, Canon := DeletableTopicResult20.Canon }

/-- Wire format of `DeleteTopicsResponse`. -/
def DeleteTopicsResponse.wire (version : Int16) (t : DeleteTopicsResponse) : List Byte :=
  Wire.when (version ≥ 1) (Wire.int32 t.ThrottleTimeMs) ++
  Wire.array (DeletableTopicResult20.wire version) t.Responses

/-- Lengths are representable. -/
structure DeleteTopicsResponse.Fits (version : Int16) (t : DeleteTopicsResponse) : Prop where
  Responses : FitsAll (DeletableTopicResult20.Fits version) t.Responses

/-- The value after `t` has been decoded into `t0`. -/
def DeleteTopicsResponse.seen (version : Int16) (t t0 : DeleteTopicsResponse) : DeleteTopicsResponse :=
  { ThrottleTimeMs := if version ≥ 1 then t.ThrottleTimeMs else t0.ThrottleTimeMs,
    Responses := some (t.Responses.elems.map fun x => x.seen version {}) }

/-- Nothing in `t` is lost at this version. -/
structure DeleteTopicsResponse.Canon (version : Int16) (t : DeleteTopicsResponse) : Prop where
  ThrottleTimeMs : ¬(version ≥ 1) → t.ThrottleTimeMs = 0
  Responses : CanonAll (DeletableTopicResult20.Canon version) t.Responses

/-- The specification of `DeleteTopicsResponse`. -/
def DeleteTopicsResponse.layout : Layout DeleteTopicsResponse.type :=
  { wire := DeleteTopicsResponse.wire, Fits := DeleteTopicsResponse.Fits, seen := DeleteTopicsResponse.seen, Canon := DeleteTopicsResponse.Canon }

end Kafka.Msg
