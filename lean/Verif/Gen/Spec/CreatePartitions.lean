import Verif.Message.Layout
import Verif.Gen.Model.CreatePartitions
/-!
Generated by tools/gen_messages.py: specification of the CreatePartitions messages.
-/
namespace Kafka.Msg

/-- Wire format of `CreatePartitionsAssignment37`. -/
def CreatePartitionsAssignment37.wire (_version : Int16) (t : CreatePartitionsAssignment37) : List Byte :=
  Wire.int32Array t.BrokerIds

/-- Lengths are representable. -/
structure CreatePartitionsAssignment37.Fits (version : Int16) (t : CreatePartitionsAssignment37) : Prop where
  BrokerIds : FitsSlice t.BrokerIds

/-- The value after `t` has been decoded into `t0`. -/
def CreatePartitionsAssignment37.seen (_version : Int16) (t _t0 : CreatePartitionsAssignment37) : CreatePartitionsAssignment37 :=
  { BrokerIds := t.BrokerIds }

/-- Nothing can be lost. -/
def CreatePartitionsAssignment37.Canon (_version : Int16) (_t : CreatePartitionsAssignment37) : Prop := True

/-- The specification of `CreatePartitionsAssignment37`. -/
def CreatePartitionsAssignment37.layout : Layout CreatePartitionsAssignment37.type :=
  { wire := CreatePartitionsAssignment37.wire, Fits := CreatePartitionsAssignment37.Fits, seen := CreatePartitionsAssignment37.seen, Canon := CreatePartitionsAssignment37.Canon }

/-- Wire format of `CreatePartitionsTopic37`. -/
def CreatePartitionsTopic37.wire (version : Int16) (t : CreatePartitionsTopic37) : List Byte :=
  Wire.string t.Name ++
  Wire.int32 t.Count ++
  Wire.array (CreatePartitionsAssignment37.wire version) t.Assignments

/-- Lengths are representable. -/
structure CreatePartitionsTopic37.Fits (version : Int16) (t : CreatePartitionsTopic37) : Prop where
  Name : FitsString t.Name
  Assignments : FitsAll (CreatePartitionsAssignment37.Fits version) t.Assignments

/-- The value after `t` has been decoded into `t0`. -/
def CreatePartitionsTopic37.seen (version : Int16) (t _t0 : CreatePartitionsTopic37) : CreatePartitionsTopic37 :=
  { Name := t.Name,
    Count := t.Count,
    Assignments := some (t.Assignments.elems.map fun x => x.seen version {}) }

/-- Nothing in `t` is lost at this version. -/
structure CreatePartitionsTopic37.Canon (version : Int16) (t : CreatePartitionsTopic37) : Prop where
  Assignments : CanonAll (CreatePartitionsAssignment37.Canon version) t.Assignments

/-- The specification of `CreatePartitionsTopic37`. -/
def CreatePartitionsTopic37.layout : Layout CreatePartitionsTopic37.type :=
  { wire := CreatePartitionsTopic37.wire, Fits := CreatePartitionsTopic37.Fits, seen := CreatePartitionsTopic37.seen, Canon := CreatePartitionsTopic37.Canon }

/-- Wire format of `CreatePartitionsRequest`. -/
def CreatePartitionsRequest.wire (version : Int16) (t : CreatePartitionsRequest) : List Byte :=
  Wire.array (CreatePartitionsTopic37.wire version) t.Topics ++
  Wire.int32 t.TimeoutMs ++
  Wire.bool t.ValidateOnly

/-- Lengths are representable. -/
structure CreatePartitionsRequest.Fits (version : Int16) (t : CreatePartitionsRequest) : Prop where
  Topics : FitsAll (CreatePartitionsTopic37.Fits version) t.Topics

/-- The value after `t` has been decoded into `t0`. -/
def CreatePartitionsRequest.seen (version : Int16) (t _t0 : CreatePartitionsRequest) : CreatePartitionsRequest :=
  { Topics := some (t.Topics.elems.map fun x => x.seen version {}),
    TimeoutMs := t.TimeoutMs,
    ValidateOnly := t.ValidateOnly }

/-- Nothing in `t` is lost at this version. -/
structure CreatePartitionsRequest.Canon (version : Int16) (t : CreatePartitionsRequest) : Prop where
  Topics : CanonAll (CreatePartitionsTopic37.Canon version) t.Topics

/-- The specification of `CreatePartitionsRequest`. -/
def CreatePartitionsRequest.layout : Layout CreatePartitionsRequest.type :=
  { wire := CreatePartitionsRequest.wire, Fits := CreatePartitionsRequest.Fits, seen := CreatePartitionsRequest.seen, Canon := CreatePartitionsRequest.Canon }

/-- Wire format of `CreatePartitionsTopicResult37`. -/
def CreatePartitionsTopicResult37.wire (_version : Int16) (t : CreatePartitionsTopicResult37) : List Byte :=
  Wire.string t.Name ++
  Wire.int16 t.ErrorCode ++
  Wire.string t.ErrorMessage

/-- Lengths are representable. -/
structure CreatePartitionsTopicResult37.Fits (version : Int16) (t : CreatePartitionsTopicResult37) : Prop where
  Name : FitsString t.Name
  ErrorMessage : FitsString t.ErrorMessage

/-- The value after `t` has been decoded into `t0`. -/
def CreatePartitionsTopicResult37.seen (_version : Int16) (t _t0 : CreatePartitionsTopicResult37) : CreatePartitionsTopicResult37 :=
  { Name := t.Name,
    ErrorCode := t.ErrorCode,
    ErrorMessage := t.ErrorMessage }

/-- Nothing can be lost. -/
def CreatePartitionsTopicResult37.Canon (_version : Int16) (_t : CreatePartitionsTopicResult37) : Prop := True

/-- The specification of `CreatePartitionsTopicResult37`. -/
def CreatePartitionsTopicResult37.layout : Layout CreatePartitionsTopicResult37.type :=
  { wire := CreatePartitionsTopicResult37.wire, Fits := CreatePartitionsTopicResult37.Fits, seen := CreatePartitionsTopicResult37.seen, Canon := CreatePartitionsTopicResult37.Canon }

/-- Wire format of `CreatePartitionsResponse`. -/
def CreatePartitionsResponse.wire (version : Int16) (t : CreatePartitionsResponse) : List Byte :=
  Wire.int32 t.ThrottleTimeMs ++
  Wire.array (CreatePartitionsTopicResult37.wire version) t.Results

/-- Lengths are representable. -/
structure CreatePartitionsResponse.Fits (version : Int16) (t : CreatePartitionsResponse) : Prop where
  Results : FitsAll (CreatePartitionsTopicResult37.Fits version) t.Results

/-- The value after `t` has been decoded into `t0`. -/
def CreatePartitionsResponse.seen (version : Int16) (t _t0 : CreatePartitionsResponse) : CreatePartitionsResponse :=
  { ThrottleTimeMs := t.ThrottleTimeMs,
    Results := some (t.Results.elems.map fun x => x.seen version {}) }

/-- Nothing in `t` is lost at this version. -/
structure CreatePartitionsResponse.Canon (version : Int16) (t : CreatePartitionsResponse) : Prop where
  Results : CanonAll (CreatePartitionsTopicResult37.Canon version) t.Results

/-- The specification of `CreatePartitionsResponse`. -/
def CreatePartitionsResponse.layout : Layout CreatePartitionsResponse.type :=
  { wire := CreatePartitionsResponse.wire, Fits := CreatePartitionsResponse.Fits, seen := CreatePartitionsResponse.seen, Canon := CreatePartitionsResponse.Canon }

end Kafka.Msg
