import Verif.Message.Gate
import Verif.Gen.Spec.CreateTopics
/-!
Generated by tools/gen_messages.py: the version-dependent fields of the CreateTopics messages.
-/
set_option linter.unusedSimpArgs false
namespace Kafka.Msg

/-- `t.validateOnly = x` -/
def CreateTopicsRequest_with_validateOnly (t : CreateTopicsRequest) (x : Bool) : CreateTopicsRequest := { t with validateOnly := x }
/-- `CreateTopicsRequest.validateOnly` -/
def CreateTopicsRequest.gatevalidateOnly : Gate :=
  { M := CreateTopicsRequest.type, L := CreateTopicsRequest.layout, field := "validateOnly", α := Bool, present := fun v => v ≥ 1,
    get := fun t => CreateTopicsRequest.validateOnly t, set := fun t x => CreateTopicsRequest_with_validateOnly t x }
theorem CreateTopicsRequest.gatevalidateOnly_holds : CreateTopicsRequest.gatevalidateOnly.Holds where
  get_set _ _ := rfl
  encode v h t x := by
    change CreateTopicsRequest.encode v (CreateTopicsRequest_with_validateOnly t x) = CreateTopicsRequest.encode v t
    change ¬(v ≥ 1) at h
    simp only [CreateTopicsRequest.encode, CreateTopicsRequest_with_validateOnly, onlyIf_neg h]
  size v h t x := by
    change CreateTopicsRequest.size v (CreateTopicsRequest_with_validateOnly t x) = CreateTopicsRequest.size v t
    change ¬(v ≥ 1) at h
    simp only [CreateTopicsRequest.size, CreateTopicsRequest_with_validateOnly, onlyIf_neg h]
  decode v h := by
    change ¬(v ≥ 1) at h
    refine (?_ : Keeps (fun t : CreateTopicsRequest => t.validateOnly) (CreateTopicsRequest.decode v))
    unfold CreateTopicsRequest.decode
    repeat' first
      | exact Keeps.absent h
      | apply Keeps.andThen
      | exact Keeps.field fun _ _ => rfl
      | exact Keeps.fieldStructs fun _ _ => rfl
      | apply Keeps.onlyIf
  carried v h t t0 t1 := by
    change (CreateTopicsRequest.seen v t t0).validateOnly = (CreateTopicsRequest.seen v t t1).validateOnly
    change v ≥ 1 at h
    simp only [CreateTopicsRequest.seen, if_pos h]

/-- `t.ThrottleTimeMs = x` -/
def CreateTopicsResponse_with_ThrottleTimeMs (t : CreateTopicsResponse) (x : Int32) : CreateTopicsResponse := { t with ThrottleTimeMs := x }
/-- `CreateTopicsResponse.ThrottleTimeMs` -/
def CreateTopicsResponse.gateThrottleTimeMs : Gate :=
  { M := CreateTopicsResponse.type, L := CreateTopicsResponse.layout, field := "ThrottleTimeMs", α := Int32, present := fun v => v ≥ 2,
    get := fun t => CreateTopicsResponse.ThrottleTimeMs t, set := fun t x => CreateTopicsResponse_with_ThrottleTimeMs t x }
theorem CreateTopicsResponse.gateThrottleTimeMs_holds : CreateTopicsResponse.gateThrottleTimeMs.Holds where
  get_set _ _ := rfl
  encode v h t x := by
    change CreateTopicsResponse.encode v (CreateTopicsResponse_with_ThrottleTimeMs t x) = CreateTopicsResponse.encode v t
    change ¬(v ≥ 2) at h
    simp only [CreateTopicsResponse.encode, CreateTopicsResponse_with_ThrottleTimeMs, onlyIf_neg h]
  size v h t x := by
    change CreateTopicsResponse.size v (CreateTopicsResponse_with_ThrottleTimeMs t x) = CreateTopicsResponse.size v t
    change ¬(v ≥ 2) at h
    simp only [CreateTopicsResponse.size, CreateTopicsResponse_with_ThrottleTimeMs, onlyIf_neg h]
  decode v h := by
    change ¬(v ≥ 2) at h
    refine (?_ : Keeps (fun t : CreateTopicsResponse => t.ThrottleTimeMs) (CreateTopicsResponse.decode v))
    unfold CreateTopicsResponse.decode
    repeat' first
      | exact Keeps.absent h
      | apply Keeps.andThen
      | exact Keeps.field fun _ _ => rfl
      | exact Keeps.fieldStructs fun _ _ => rfl
      | apply Keeps.onlyIf
  carried v h t t0 t1 := by
    change (CreateTopicsResponse.seen v t t0).ThrottleTimeMs = (CreateTopicsResponse.seen v t t1).ThrottleTimeMs
    change v ≥ 2 at h
    simp only [CreateTopicsResponse.seen, if_pos h]

/-- `t.ErrorMessage = x` -/
def CreatableTopicResult19_with_ErrorMessage (t : CreatableTopicResult19) (x : GoString) : CreatableTopicResult19 := { t with ErrorMessage := x }
/-- `CreatableTopicResult19.ErrorMessage` -/
def CreatableTopicResult19.gateErrorMessage : Gate :=
  { M := CreatableTopicResult19.type, L := CreatableTopicResult19.layout, field := "ErrorMessage", α := GoString, present := fun v => v ≥ 1,
    get := fun t => CreatableTopicResult19.ErrorMessage t, set := fun t x => CreatableTopicResult19_with_ErrorMessage t x }
theorem CreatableTopicResult19.gateErrorMessage_holds : CreatableTopicResult19.gateErrorMessage.Holds where
  get_set _ _ := rfl
  encode v h t x := by
    change CreatableTopicResult19.encode v (CreatableTopicResult19_with_ErrorMessage t x) = CreatableTopicResult19.encode v t
    change ¬(v ≥ 1) at h
    simp only [CreatableTopicResult19.encode, CreatableTopicResult19_with_ErrorMessage, onlyIf_neg h]
  size v h t x := by
    change CreatableTopicResult19.size v (CreatableTopicResult19_with_ErrorMessage t x) = CreatableTopicResult19.size v t
    change ¬(v ≥ 1) at h
    simp only [CreatableTopicResult19.size, CreatableTopicResult19_with_ErrorMessage, onlyIf_neg h]
  decode v h := by
    change ¬(v ≥ 1) at h
    refine (?_ : Keeps (fun t : CreatableTopicResult19 => t.ErrorMessage) (CreatableTopicResult19.decode v))
    unfold CreatableTopicResult19.decode
    repeat' first
      | exact Keeps.absent h
      | apply Keeps.andThen
      | exact Keeps.field fun _ _ => rfl
      | exact Keeps.fieldStructs fun _ _ => rfl
      | apply Keeps.onlyIf
  carried v h t t0 t1 := by
    change (CreatableTopicResult19.seen v t t0).ErrorMessage = (CreatableTopicResult19.seen v t t1).ErrorMessage
    change v ≥ 1 at h
    simp only [CreatableTopicResult19.seen, if_pos h]

/-- `t.TopicConfigErrorCode = x` -/
def CreatableTopicResult19_with_TopicConfigErrorCode (t : CreatableTopicResult19) (x : Int16) : CreatableTopicResult19 := { t with TopicConfigErrorCode := x }
/-- `CreatableTopicResult19.TopicConfigErrorCode` -/
def CreatableTopicResult19.gateTopicConfigErrorCode : Gate :=
  { M := CreatableTopicResult19.type, L := CreatableTopicResult19.layout, field := "TopicConfigErrorCode", α := Int16, present := fun v => v ≥ 5,
    get := fun t => CreatableTopicResult19.TopicConfigErrorCode t, set := fun t x => CreatableTopicResult19_with_TopicConfigErrorCode t x }
theorem CreatableTopicResult19.gateTopicConfigErrorCode_holds : CreatableTopicResult19.gateTopicConfigErrorCode.Holds where
  get_set _ _ := rfl
  encode v h t x := by
    change CreatableTopicResult19.encode v (CreatableTopicResult19_with_TopicConfigErrorCode t x) = CreatableTopicResult19.encode v t
    change ¬(v ≥ 5) at h
    simp only [CreatableTopicResult19.encode, CreatableTopicResult19_with_TopicConfigErrorCode, onlyIf_neg h]
  size v h t x := by
    change CreatableTopicResult19.size v (CreatableTopicResult19_with_TopicConfigErrorCode t x) = CreatableTopicResult19.size v t
    change ¬(v ≥ 5) at h
    simp only [CreatableTopicResult19.size, CreatableTopicResult19_with_TopicConfigErrorCode, onlyIf_neg h]
  decode v h := by
    change ¬(v ≥ 5) at h
    refine (?_ : Keeps (fun t : CreatableTopicResult19 => t.TopicConfigErrorCode) (CreatableTopicResult19.decode v))
    unfold CreatableTopicResult19.decode
    repeat' first
      | exact Keeps.absent h
      | apply Keeps.andThen
      | exact Keeps.field fun _ _ => rfl
      | exact Keeps.fieldStructs fun _ _ => rfl
      | apply Keeps.onlyIf
  carried v h t t0 t1 := by
    change (CreatableTopicResult19.seen v t t0).TopicConfigErrorCode = (CreatableTopicResult19.seen v t t1).TopicConfigErrorCode
    change v ≥ 5 at h
    simp only [CreatableTopicResult19.seen, if_pos h]

/-- `t.NumPartitions = x` -/
def CreatableTopicResult19_with_NumPartitions (t : CreatableTopicResult19) (x : Int32) : CreatableTopicResult19 := { t with NumPartitions := x }
/-- `CreatableTopicResult19.NumPartitions` -/
def CreatableTopicResult19.gateNumPartitions : Gate :=
  { M := CreatableTopicResult19.type, L := CreatableTopicResult19.layout, field := "NumPartitions", α := Int32, present := fun v => v ≥ 5,
    get := fun t => CreatableTopicResult19.NumPartitions t, set := fun t x => CreatableTopicResult19_with_NumPartitions t x }
theorem CreatableTopicResult19.gateNumPartitions_holds : CreatableTopicResult19.gateNumPartitions.Holds where
  get_set _ _ := rfl
  encode v h t x := by
    change CreatableTopicResult19.encode v (CreatableTopicResult19_with_NumPartitions t x) = CreatableTopicResult19.encode v t
    change ¬(v ≥ 5) at h
    simp only [CreatableTopicResult19.encode, CreatableTopicResult19_with_NumPartitions, onlyIf_neg h]
  size v h t x := by
    change CreatableTopicResult19.size v (CreatableTopicResult19_with_NumPartitions t x) = CreatableTopicResult19.size v t
    change ¬(v ≥ 5) at h
    simp only [CreatableTopicResult19.size, CreatableTopicResult19_with_NumPartitions, onlyIf_neg h]
  decode v h := by
    change ¬(v ≥ 5) at h
    refine (?_ : Keeps (fun t : CreatableTopicResult19 => t.NumPartitions) (CreatableTopicResult19.decode v))
    unfold CreatableTopicResult19.decode
    repeat' first
      | exact Keeps.absent h
      | apply Keeps.andThen
      | exact Keeps.field fun _ _ => rfl
      | exact Keeps.fieldStructs fun _ _ => rfl
      | apply Keeps.onlyIf
  carried v h t t0 t1 := by
    change (CreatableTopicResult19.seen v t t0).NumPartitions = (CreatableTopicResult19.seen v t t1).NumPartitions
    change v ≥ 5 at h
    simp only [CreatableTopicResult19.seen, if_pos h]

/-- `t.ReplicationFactor = x` -/
def CreatableTopicResult19_with_ReplicationFactor (t : CreatableTopicResult19) (x : Int16) : CreatableTopicResult19 := { t with ReplicationFactor := x }
/-- `CreatableTopicResult19.ReplicationFactor` -/
def CreatableTopicResult19.gateReplicationFactor : Gate :=
  { M := CreatableTopicResult19.type, L := CreatableTopicResult19.layout, field := "ReplicationFactor", α := Int16, present := fun v => v ≥ 5,
    get := fun t => CreatableTopicResult19.ReplicationFactor t, set := fun t x => CreatableTopicResult19_with_ReplicationFactor t x }
theorem CreatableTopicResult19.gateReplicationFactor_holds : CreatableTopicResult19.gateReplicationFactor.Holds where
  get_set _ _ := rfl
  encode v h t x := by
    change CreatableTopicResult19.encode v (CreatableTopicResult19_with_ReplicationFactor t x) = CreatableTopicResult19.encode v t
    change ¬(v ≥ 5) at h
    simp only [CreatableTopicResult19.encode, CreatableTopicResult19_with_ReplicationFactor, onlyIf_neg h]
  size v h t x := by
    change CreatableTopicResult19.size v (CreatableTopicResult19_with_ReplicationFactor t x) = CreatableTopicResult19.size v t
    change ¬(v ≥ 5) at h
    simp only [CreatableTopicResult19.size, CreatableTopicResult19_with_ReplicationFactor, onlyIf_neg h]
  decode v h := by
    change ¬(v ≥ 5) at h
    refine (?_ : Keeps (fun t : CreatableTopicResult19 => t.ReplicationFactor) (CreatableTopicResult19.decode v))
    unfold CreatableTopicResult19.decode
    repeat' first
      | exact Keeps.absent h
      | apply Keeps.andThen
      | exact Keeps.field fun _ _ => rfl
      | exact Keeps.fieldStructs fun _ _ => rfl
      | apply Keeps.onlyIf
  carried v h t t0 t1 := by
    change (CreatableTopicResult19.seen v t t0).ReplicationFactor = (CreatableTopicResult19.seen v t t1).ReplicationFactor
    change v ≥ 5 at h
    simp only [CreatableTopicResult19.seen, if_pos h]

/-- `t.Configs = x` -/
def CreatableTopicResult19_with_Configs (t : CreatableTopicResult19) (x : Slice CreatableTopicConfigs19) : CreatableTopicResult19 := { t with Configs := x }
/-- `CreatableTopicResult19.Configs` -/
def CreatableTopicResult19.gateConfigs : Gate :=
  { M := CreatableTopicResult19.type, L := CreatableTopicResult19.layout, field := "Configs", α := Slice CreatableTopicConfigs19, present := fun v => v ≥ 5,
    get := fun t => CreatableTopicResult19.Configs t, set := fun t x => CreatableTopicResult19_with_Configs t x }
theorem CreatableTopicResult19.gateConfigs_holds : CreatableTopicResult19.gateConfigs.Holds where
  get_set _ _ := rfl
  encode v h t x := by
    change CreatableTopicResult19.encode v (CreatableTopicResult19_with_Configs t x) = CreatableTopicResult19.encode v t
    change ¬(v ≥ 5) at h
    simp only [CreatableTopicResult19.encode, CreatableTopicResult19_with_Configs, onlyIf_neg h]
  size v h t x := by
    change CreatableTopicResult19.size v (CreatableTopicResult19_with_Configs t x) = CreatableTopicResult19.size v t
    change ¬(v ≥ 5) at h
    simp only [CreatableTopicResult19.size, CreatableTopicResult19_with_Configs, onlyIf_neg h]
  decode v h := by
    change ¬(v ≥ 5) at h
    refine (?_ : Keeps (fun t : CreatableTopicResult19 => t.Configs) (CreatableTopicResult19.decode v))
    unfold CreatableTopicResult19.decode
    repeat' first
      | exact Keeps.absent h
      | apply Keeps.andThen
      | exact Keeps.field fun _ _ => rfl
      | exact Keeps.fieldStructs fun _ _ => rfl
      | apply Keeps.onlyIf
  carried v h t t0 t1 := by
    change (CreatableTopicResult19.seen v t t0).Configs = (CreatableTopicResult19.seen v t t1).Configs
    change v ≥ 5 at h
    simp only [CreatableTopicResult19.seen, if_pos h]

/-- `t.Name = x` -/
def CreatableTopicConfigs19_with_Name (t : CreatableTopicConfigs19) (x : GoString) : CreatableTopicConfigs19 := { t with Name := x }
/-- `CreatableTopicConfigs19.Name` -/
def CreatableTopicConfigs19.gateName : Gate :=
  { M := CreatableTopicConfigs19.type, L := CreatableTopicConfigs19.layout, field := "Name", α := GoString, present := fun v => v ≥ 5,
    get := fun t => CreatableTopicConfigs19.Name t, set := fun t x => CreatableTopicConfigs19_with_Name t x }
theorem CreatableTopicConfigs19.gateName_holds : CreatableTopicConfigs19.gateName.Holds where
  get_set _ _ := rfl
  encode v h t x := by
    change CreatableTopicConfigs19.encode v (CreatableTopicConfigs19_with_Name t x) = CreatableTopicConfigs19.encode v t
    change ¬(v ≥ 5) at h
    simp only [CreatableTopicConfigs19.encode, CreatableTopicConfigs19_with_Name, onlyIf_neg h]
  size v h t x := by
    change CreatableTopicConfigs19.size v (CreatableTopicConfigs19_with_Name t x) = CreatableTopicConfigs19.size v t
    change ¬(v ≥ 5) at h
    simp only [CreatableTopicConfigs19.size, CreatableTopicConfigs19_with_Name, onlyIf_neg h]
  decode v h := by
    change ¬(v ≥ 5) at h
    refine (?_ : Keeps (fun t : CreatableTopicConfigs19 => t.Name) (CreatableTopicConfigs19.decode v))
    unfold CreatableTopicConfigs19.decode
    repeat' first
      | exact Keeps.absent h
      | apply Keeps.andThen
      | exact Keeps.field fun _ _ => rfl
      | exact Keeps.fieldStructs fun _ _ => rfl
      | apply Keeps.onlyIf
  carried v h t t0 t1 := by
    change (CreatableTopicConfigs19.seen v t t0).Name = (CreatableTopicConfigs19.seen v t t1).Name
    change v ≥ 5 at h
    simp only [CreatableTopicConfigs19.seen, if_pos h]

/-- `t.Value = x` -/
def CreatableTopicConfigs19_with_Value (t : CreatableTopicConfigs19) (x : GoString) : CreatableTopicConfigs19 := { t with Value := x }
/-- `CreatableTopicConfigs19.Value` -/
def CreatableTopicConfigs19.gateValue : Gate :=
  { M := CreatableTopicConfigs19.type, L := CreatableTopicConfigs19.layout, field := "Value", α := GoString, present := fun v => v ≥ 5,
    get := fun t => CreatableTopicConfigs19.Value t, set := fun t x => CreatableTopicConfigs19_with_Value t x }
theorem CreatableTopicConfigs19.gateValue_holds : CreatableTopicConfigs19.gateValue.Holds where
  get_set _ _ := rfl
  encode v h t x := by
    change CreatableTopicConfigs19.encode v (CreatableTopicConfigs19_with_Value t x) = CreatableTopicConfigs19.encode v t
    change ¬(v ≥ 5) at h
    simp only [CreatableTopicConfigs19.encode, CreatableTopicConfigs19_with_Value, onlyIf_neg h]
  size v h t x := by
    change CreatableTopicConfigs19.size v (CreatableTopicConfigs19_with_Value t x) = CreatableTopicConfigs19.size v t
    change ¬(v ≥ 5) at h
    simp only [CreatableTopicConfigs19.size, CreatableTopicConfigs19_with_Value, onlyIf_neg h]
  decode v h := by
    change ¬(v ≥ 5) at h
    refine (?_ : Keeps (fun t : CreatableTopicConfigs19 => t.Value) (CreatableTopicConfigs19.decode v))
    unfold CreatableTopicConfigs19.decode
    repeat' first
      | exact Keeps.absent h
      | apply Keeps.andThen
      | exact Keeps.field fun _ _ => rfl
      | exact Keeps.fieldStructs fun _ _ => rfl
      | apply Keeps.onlyIf
  carried v h t t0 t1 := by
    change (CreatableTopicConfigs19.seen v t t0).Value = (CreatableTopicConfigs19.seen v t t1).Value
    change v ≥ 5 at h
    simp only [CreatableTopicConfigs19.seen, if_pos h]

/-- `t.ReadOnly = x` -/
def CreatableTopicConfigs19_with_ReadOnly (t : CreatableTopicConfigs19) (x : Bool) : CreatableTopicConfigs19 := { t with ReadOnly := x }
/-- `CreatableTopicConfigs19.ReadOnly` -/
def CreatableTopicConfigs19.gateReadOnly : Gate :=
  { M := CreatableTopicConfigs19.type, L := CreatableTopicConfigs19.layout, field := "ReadOnly", α := Bool, present := fun v => v ≥ 5,
    get := fun t => CreatableTopicConfigs19.ReadOnly t, set := fun t x => CreatableTopicConfigs19_with_ReadOnly t x }
theorem CreatableTopicConfigs19.gateReadOnly_holds : CreatableTopicConfigs19.gateReadOnly.Holds where
  get_set _ _ := rfl
  encode v h t x := by
    change CreatableTopicConfigs19.encode v (CreatableTopicConfigs19_with_ReadOnly t x) = CreatableTopicConfigs19.encode v t
    change ¬(v ≥ 5) at h
    simp only [CreatableTopicConfigs19.encode, CreatableTopicConfigs19_with_ReadOnly, onlyIf_neg h]
  size v h t x := by
    change CreatableTopicConfigs19.size v (CreatableTopicConfigs19_with_ReadOnly t x) = CreatableTopicConfigs19.size v t
    change ¬(v ≥ 5) at h
    simp only [CreatableTopicConfigs19.size, CreatableTopicConfigs19_with_ReadOnly, onlyIf_neg h]
  decode v h := by
    change ¬(v ≥ 5) at h
    refine (?_ : Keeps (fun t : CreatableTopicConfigs19 => t.ReadOnly) (CreatableTopicConfigs19.decode v))
    unfold CreatableTopicConfigs19.decode
    repeat' first
      | exact Keeps.absent h
      | apply Keeps.andThen
      | exact Keeps.field fun _ _ => rfl
      | exact Keeps.fieldStructs fun _ _ => rfl
      | apply Keeps.onlyIf
  carried v h t t0 t1 := by
    change (CreatableTopicConfigs19.seen v t t0).ReadOnly = (CreatableTopicConfigs19.seen v t t1).ReadOnly
    change v ≥ 5 at h
    simp only [CreatableTopicConfigs19.seen, if_pos h]

/-- `t.ConfigSource = x` -/
def CreatableTopicConfigs19_with_ConfigSource (t : CreatableTopicConfigs19) (x : Int8) : CreatableTopicConfigs19 := { t with ConfigSource := x }
/-- `CreatableTopicConfigs19.ConfigSource` -/
def CreatableTopicConfigs19.gateConfigSource : Gate :=
  { M := CreatableTopicConfigs19.type, L := CreatableTopicConfigs19.layout, field := "ConfigSource", α := Int8, present := fun v => v ≥ 5,
    get := fun t => CreatableTopicConfigs19.ConfigSource t, set := fun t x => CreatableTopicConfigs19_with_ConfigSource t x }
theorem CreatableTopicConfigs19.gateConfigSource_holds : CreatableTopicConfigs19.gateConfigSource.Holds where
  get_set _ _ := rfl
  encode v h t x := by
    change CreatableTopicConfigs19.encode v (CreatableTopicConfigs19_with_ConfigSource t x) = CreatableTopicConfigs19.encode v t
    change ¬(v ≥ 5) at h
    simp only [CreatableTopicConfigs19.encode, CreatableTopicConfigs19_with_ConfigSource, onlyIf_neg h]
  size v h t x := by
    change CreatableTopicConfigs19.size v (CreatableTopicConfigs19_with_ConfigSource t x) = CreatableTopicConfigs19.size v t
    change ¬(v ≥ 5) at h
    simp only [CreatableTopicConfigs19.size, CreatableTopicConfigs19_with_ConfigSource, onlyIf_neg h]
  decode v h := by
    change ¬(v ≥ 5) at h
    refine (?_ : Keeps (fun t : CreatableTopicConfigs19 => t.ConfigSource) (CreatableTopicConfigs19.decode v))
    unfold CreatableTopicConfigs19.decode
    repeat' first
      | exact Keeps.absent h
      | apply Keeps.andThen
      | exact Keeps.field fun _ _ => rfl
      | exact Keeps.fieldStructs fun _ _ => rfl
      | apply Keeps.onlyIf
  carried v h t t0 t1 := by
    change (CreatableTopicConfigs19.seen v t t0).ConfigSource = (CreatableTopicConfigs19.seen v t t1).ConfigSource
    change v ≥ 5 at h
    simp only [CreatableTopicConfigs19.seen, if_pos h]

/-- `t.IsSensitive = x` -/
def CreatableTopicConfigs19_with_IsSensitive (t : CreatableTopicConfigs19) (x : Bool) : CreatableTopicConfigs19 := { t with IsSensitive := x }
/-- `CreatableTopicConfigs19.IsSensitive` -/
def CreatableTopicConfigs19.gateIsSensitive : Gate :=
  { M := CreatableTopicConfigs19.type, L := CreatableTopicConfigs19.layout, field := "IsSensitive", α := Bool, present := fun v => v ≥ 5,
    get := fun t => CreatableTopicConfigs19.IsSensitive t, set := fun t x => CreatableTopicConfigs19_with_IsSensitive t x }
theorem CreatableTopicConfigs19.gateIsSensitive_holds : CreatableTopicConfigs19.gateIsSensitive.Holds where
  get_set _ _ := rfl
  encode v h t x := by
    change CreatableTopicConfigs19.encode v (CreatableTopicConfigs19_with_IsSensitive t x) = CreatableTopicConfigs19.encode v t
    change ¬(v ≥ 5) at h
    simp only [CreatableTopicConfigs19.encode, CreatableTopicConfigs19_with_IsSensitive, onlyIf_neg h]
  size v h t x := by
    change CreatableTopicConfigs19.size v (CreatableTopicConfigs19_with_IsSensitive t x) = CreatableTopicConfigs19.size v t
    change ¬(v ≥ 5) at h
    simp only [CreatableTopicConfigs19.size, CreatableTopicConfigs19_with_IsSensitive, onlyIf_neg h]
  decode v h := by
    change ¬(v ≥ 5) at h
    refine (?_ : Keeps (fun t : CreatableTopicConfigs19 => t.IsSensitive) (CreatableTopicConfigs19.decode v))
    unfold CreatableTopicConfigs19.decode
    repeat' first
      | exact Keeps.absent h
      | apply Keeps.andThen
      | exact Keeps.field fun _ _ => rfl
      | exact Keeps.fieldStructs fun _ _ => rfl
      | apply Keeps.onlyIf
  carried v h t t0 t1 := by
    change (CreatableTopicConfigs19.seen v t t0).IsSensitive = (CreatableTopicConfigs19.seen v t t1).IsSensitive
    change v ≥ 5 at h
    simp only [CreatableTopicConfigs19.seen, if_pos h]

/-- The version-dependent fields of the CreateTopics messages. -/
def gatesCreateTopics : List Gate :=
  [CreateTopicsRequest.gatevalidateOnly,
   CreateTopicsResponse.gateThrottleTimeMs,
   CreatableTopicResult19.gateErrorMessage,
   CreatableTopicResult19.gateTopicConfigErrorCode,
   CreatableTopicResult19.gateNumPartitions,
   CreatableTopicResult19.gateReplicationFactor,
   CreatableTopicResult19.gateConfigs,
   CreatableTopicConfigs19.gateName,
   CreatableTopicConfigs19.gateValue,
   CreatableTopicConfigs19.gateReadOnly,
   CreatableTopicConfigs19.gateConfigSource,
   CreatableTopicConfigs19.gateIsSensitive]

theorem gatesCreateTopics_hold : ∀ g ∈ gatesCreateTopics, g.Holds := by
  unfold gatesCreateTopics
  simp only [List.forall_mem_cons]
  exact ⟨CreateTopicsRequest.gatevalidateOnly_holds,
    CreateTopicsResponse.gateThrottleTimeMs_holds,
    CreatableTopicResult19.gateErrorMessage_holds,
    CreatableTopicResult19.gateTopicConfigErrorCode_holds,
    CreatableTopicResult19.gateNumPartitions_holds,
    CreatableTopicResult19.gateReplicationFactor_holds,
    CreatableTopicResult19.gateConfigs_holds,
    CreatableTopicConfigs19.gateName_holds,
    CreatableTopicConfigs19.gateValue_holds,
    CreatableTopicConfigs19.gateReadOnly_holds,
    CreatableTopicConfigs19.gateConfigSource_holds,
    CreatableTopicConfigs19.gateIsSensitive_holds,
    fun _ h => absurd h (by simp)⟩

end Kafka.Msg
