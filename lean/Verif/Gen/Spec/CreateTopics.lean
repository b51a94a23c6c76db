import Verif.Message.Layout
import Verif.Gen.Model.CreateTopics
/-!
Generated by tools/gen_messages.py: specification of the CreateTopics messages.
-/
namespace Kafka.Msg

/-- Wire format of `CreatableReplicaAssignment19`. -/
def CreatableReplicaAssignment19.wire (_version : Int16) (t : CreatableReplicaAssignment19) : List Byte :=
  Wire.int32 t.PartitionIndex ++
  Wire.int32Array t.BrokerIds

/-- Lengths are representable. -/
structure CreatableReplicaAssignment19.Fits (version : Int16) (t : CreatableReplicaAssignment19) : Prop where
  BrokerIds : FitsSlice t.BrokerIds

/-- The value after `t` has been decoded into `t0`. -/
def CreatableReplicaAssignment19.seen (_version : Int16) (t _t0 : CreatableReplicaAssignment19) : CreatableReplicaAssignment19 :=
  { PartitionIndex := t.PartitionIndex,
    BrokerIds := t.BrokerIds }

/-- Nothing can be lost. -/
def CreatableReplicaAssignment19.Canon (_version : Int16) (_t : CreatableReplicaAssignment19) : Prop := True

/-- The specification of `CreatableReplicaAssignment19`. -/
def CreatableReplicaAssignment19.layout : Layout CreatableReplicaAssignment19.type :=
  { wire := CreatableReplicaAssignment19.wire, Fits := CreatableReplicaAssignment19.Fits, seen := CreatableReplicaAssignment19.seen, Canon := CreatableReplicaAssignment19.Canon }

/-- Wire format of `CreateableTopicConfig19`. -/
def CreateableTopicConfig19.wire (_version : Int16) (t : CreateableTopicConfig19) : List Byte :=
  Wire.string t.Name ++
  Wire.string t.Value

/-- Lengths are representable. -/
structure CreateableTopicConfig19.Fits (version : Int16) (t : CreateableTopicConfig19) : Prop where
  Name : FitsString t.Name
  Value : FitsString t.Value

/-- The value after `t` has been decoded into `t0`. -/
def CreateableTopicConfig19.seen (_version : Int16) (t _t0 : CreateableTopicConfig19) : CreateableTopicConfig19 :=
  { Name := t.Name,
    Value := t.Value }

/-- Nothing can be lost. -/
def CreateableTopicConfig19.Canon (_version : Int16) (_t : CreateableTopicConfig19) : Prop := True

/-- The specification of `CreateableTopicConfig19`. -/
def CreateableTopicConfig19.layout : Layout CreateableTopicConfig19.type :=
  { wire := CreateableTopicConfig19.wire, Fits := CreateableTopicConfig19.Fits, seen := CreateableTopicConfig19.seen, Canon := CreateableTopicConfig19.Canon }

/-- Wire format of `CreatableTopic19`. -/
def CreatableTopic19.wire (version : Int16) (t : CreatableTopic19) : List Byte :=
  Wire.string t.Name ++
  Wire.int32 t.NumPartitions ++
  Wire.int16 t.ReplicationFactor ++
  Wire.array (CreatableReplicaAssignment19.wire version) t.Assignments ++
  Wire.array (CreateableTopicConfig19.wire version) t.Configs

/-- Lengths are representable. -/
structure CreatableTopic19.Fits (version : Int16) (t : CreatableTopic19) : Prop where
  Name : FitsString t.Name
  Assignments : FitsAll (CreatableReplicaAssignment19.Fits version) t.Assignments
  Configs : FitsAll (CreateableTopicConfig19.Fits version) t.Configs

/-- The value after `t` has been decoded into `t0`. -/
def CreatableTopic19.seen (version : Int16) (t _t0 : CreatableTopic19) : CreatableTopic19 :=
  { Name := t.Name,
    NumPartitions := t.NumPartitions,
    ReplicationFactor := t.ReplicationFactor,
    Assignments := some (t.Assignments.elems.map fun x => x.seen version {}),
    Configs := some (t.Configs.elems.map fun x => x.seen version {}) }

/-- Nothing in `t` is lost at this version. -/
structure CreatableTopic19.Canon (version : Int16) (t : CreatableTopic19) : Prop where
  Assignments : CanonAll (CreatableReplicaAssignment19.Canon version) t.Assignments
  Configs : CanonAll (CreateableTopicConfig19.Canon version) t.Configs

/-- The specification of `CreatableTopic19`. -/
def CreatableTopic19.layout : Layout CreatableTopic19.type :=
  { wire := CreatableTopic19.wire, Fits := CreatableTopic19.Fits, seen := CreatableTopic19.seen, Canon := CreatableTopic19.Canon }

/-- Wire format of `CreateTopicsRequest`. -/
def CreateTopicsRequest.wire (version : Int16) (t : CreateTopicsRequest) : List Byte :=
  Wire.array (CreatableTopic19.wire version) t.Topics ++
  Wire.int32 t.timeoutMs ++
  Wire.when (version ≥ 1) (Wire.bool t.validateOnly)

/-- Lengths are representable. -/
structure CreateTopicsRequest.Fits (version : Int16) (t : CreateTopicsRequest) : Prop where
  Topics : FitsAll (CreatableTopic19.Fits version) t.Topics

/-- The value after `t` has been decoded into `t0`. -/
def CreateTopicsRequest.seen (version : Int16) (t t0 : CreateTopicsRequest) : CreateTopicsRequest :=
  { Topics := some (t.Topics.elems.map fun x => x.seen version {}),
    timeoutMs := t.timeoutMs,
    validateOnly := if version ≥ 1 then t.validateOnly else t0.validateOnly }

/-- Nothing in `t` is lost at this version. -/
structure CreateTopicsRequest.Canon (version : Int16) (t : CreateTopicsRequest) : Prop where
  Topics : CanonAll (CreatableTopic19.Canon version) t.Topics
  validateOnly : ¬(version ≥ 1) → t.validateOnly = false

/-- The specification of `CreateTopicsRequest`. -/
def CreateTopicsRequest.layout : Layout CreateTopicsRequest.type :=
  { wire := CreateTopicsRequest.wire, Fits := CreateTopicsRequest.Fits, seen := CreateTopicsRequest.seen, Canon := CreateTopicsRequest.Canon }

/-- Wire format of `CreatableTopicConfigs19`. -/
def CreatableTopicConfigs19.wire (version : Int16) (t : CreatableTopicConfigs19) : List Byte :=
  Wire.when (version ≥ 5) (Wire.string t.Name) ++
  Wire.when (version ≥ 5) (Wire.string t.Value) ++
  Wire.when (version ≥ 5) (Wire.bool t.ReadOnly) ++
  Wire.when (version ≥ 5) (Wire.int8 t.ConfigSource) ++
  Wire.when (version ≥ 5) (Wire.bool t.IsSensitive)

/-- Lengths are representable. -/
structure CreatableTopicConfigs19.Fits (version : Int16) (t : CreatableTopicConfigs19) : Prop where
  Name : version ≥ 5 → FitsString t.Name
  Value : version ≥ 5 → FitsString t.Value

/-- The value after `t` has been decoded into `t0`. -/
def CreatableTopicConfigs19.seen (version : Int16) (t t0 : CreatableTopicConfigs19) : CreatableTopicConfigs19 :=
  { Name := if version ≥ 5 then t.Name else t0.Name,
    Value := if version ≥ 5 then t.Value else t0.Value,
    ReadOnly := if version ≥ 5 then t.ReadOnly else t0.ReadOnly,
    ConfigSource := if version ≥ 5 then t.ConfigSource else t0.ConfigSource,
    IsSensitive := if version ≥ 5 then t.IsSensitive else t0.IsSensitive }

/-- Nothing in `t` is lost at this version. -/
structure CreatableTopicConfigs19.Canon (version : Int16) (t : CreatableTopicConfigs19) : Prop where
  Name : ¬(version ≥ 5) → t.Name = []
  Value : ¬(version ≥ 5) → t.Value = []
  ReadOnly : ¬(version ≥ 5) → t.ReadOnly = false
  ConfigSource : ¬(version ≥ 5) → t.ConfigSource = 0
  IsSensitive : ¬(version ≥ 5) → t.IsSensitive = false

/-- The specification of `CreatableTopicConfigs19`. -/
def CreatableTopicConfigs19.layout : Layout CreatableTopicConfigs19.type :=
  { wire := CreatableTopicConfigs19.wire, Fits := CreatableTopicConfigs19.Fits, seen := CreatableTopicConfigs19.seen, Canon := CreatableTopicConfigs19.Canon }

/-- Wire format of `CreatableTopicResult19`. -/
def CreatableTopicResult19.wire (version : Int16) (t : CreatableTopicResult19) : List Byte :=
  Wire.string t.Name ++
  Wire.int16 t.ErrorCode ++
  Wire.when (version ≥ 1) (Wire.string t.ErrorMessage) ++
  Wire.when (version ≥ 5) (Wire.int16 t.TopicConfigErrorCode) ++
  Wire.when (version ≥ 5) (Wire.int32 t.NumPartitions) ++
  Wire.when (version ≥ 5) (Wire.int16 t.ReplicationFactor) ++
  Wire.when (version ≥ 5) (Wire.array (CreatableTopicConfigs19.wire version) t.Configs)

/-- Lengths are representable. -/
structure CreatableTopicResult19.Fits (version : Int16) (t : CreatableTopicResult19) : Prop where
  Name : FitsString t.Name
  ErrorMessage : version ≥ 1 → FitsString t.ErrorMessage
  Configs : version ≥ 5 → FitsAll (CreatableTopicConfigs19.Fits version) t.Configs

/-- The value after `t` has been decoded into `t0`. -/
def CreatableTopicResult19.seen (version : Int16) (t t0 : CreatableTopicResult19) : CreatableTopicResult19 :=
  { Name := t.Name,
    ErrorCode := t.ErrorCode,
    ErrorMessage := if version ≥ 1 then t.ErrorMessage else t0.ErrorMessage,
    TopicConfigErrorCode := if version ≥ 5 then t.TopicConfigErrorCode else t0.TopicConfigErrorCode,
    NumPartitions := if version ≥ 5 then t.NumPartitions else t0.NumPartitions,
    ReplicationFactor := if version ≥ 5 then t.ReplicationFactor else t0.ReplicationFactor,
    Configs := if version ≥ 5 then some (t.Configs.elems.map fun x => x.seen version {}) else t0.Configs }

/-- Nothing in `t` is lost at this version. -/
structure CreatableTopicResult19.Canon (version : Int16) (t : CreatableTopicResult19) : Prop where
  ErrorMessage : ¬(version ≥ 1) → t.ErrorMessage = []
  TopicConfigErrorCode : ¬(version ≥ 5) → t.TopicConfigErrorCode = 0
  NumPartitions : ¬(version ≥ 5) → t.NumPartitions = 0
  ReplicationFactor : ¬(version ≥ 5) → t.ReplicationFactor = 0
  Configs : (version ≥ 5 → CanonAll (CreatableTopicConfigs19.Canon version) t.Configs) ∧ (¬(version ≥ 5) → t.Configs = none)

/-- The specification of `CreatableTopicResult19`. -/
def CreatableTopicResult19.layout : Layout CreatableTopicResult19.type :=
  { wire := CreatableTopicResult19.wire, Fits := CreatableTopicResult19.Fits, seen := CreatableTopicResult19.seen, Canon := CreatableTopicResult19.Canon }

/-- Wire format of `CreateTopicsResponse`. -/
def CreateTopicsResponse.wire (version : Int16) (t : CreateTopicsResponse) : List Byte :=
  Wire.when (version ≥ 2) (Wire.int32 t.ThrottleTimeMs) ++
  Wire.array (CreatableTopicResult19.wire version) t.Topics

/-- Lengths are representable. -/
structure CreateTopicsResponse.Fits (version : Int16) (t : CreateTopicsResponse) : Prop where
  Topics : FitsAll (CreatableTopicResult19.Fits version) t.Topics

/-- The value after `t` has been decoded into `t0`. -/
def CreateTopicsResponse.seen (version : Int16) (t t0 : CreateTopicsResponse) : CreateTopicsResponse :=
  { ThrottleTimeMs := if version ≥ 2 then t.ThrottleTimeMs else t0.ThrottleTimeMs,
    Topics := some (t.Topics.elems.map fun x => x.seen version {}) }

/-- Nothing in `t` is lost at this version. -/
structure CreateTopicsResponse.Canon (version : Int16) (t : CreateTopicsResponse) : Prop where
  ThrottleTimeMs : ¬(version ≥ 2) → t.ThrottleTimeMs = 0
  Topics : CanonAll (CreatableTopicResult19.Canon version) t.Topics

/-- The specification of `CreateTopicsResponse`. -/
def CreateTopicsResponse.layout : Layout CreateTopicsResponse.type :=
  { wire := CreateTopicsResponse.wire, Fits := CreateTopicsResponse.Fits, seen := CreateTopicsResponse.seen, Canon := CreateTopicsResponse.Canon }

end Kafka.Msg
