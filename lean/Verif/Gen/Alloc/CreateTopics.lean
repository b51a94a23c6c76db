import Verif.Message.AllocLemmas
import Verif.Gen.Model.CreateTopics
/-!
Generated by tools/gen_messages.py: memory asked for by decoding the CreateTopics messages.
-/
namespace Kafka.Msg

/-- message/messages.gen.go:5530-5541 `CreatableReplicaAssignment19.Decode`, with the memory it asks for -/
def CreatableReplicaAssignment19.decodeA (_version : Int16) : CreatableReplicaAssignment19 → ADec CreatableReplicaAssignment19 :=
    ADec.field ADec.int32 (fun t x => { t with PartitionIndex := x }) ;>>
    ADec.field ADec.int32Array (fun t x => { t with BrokerIds := x })
theorem CreatableReplicaAssignment19.erases (version : Int16) (t : CreatableReplicaAssignment19) : Erases (CreatableReplicaAssignment19.decodeA version t) (CreatableReplicaAssignment19.decode version t) :=
  ((ErasesStep.field (.free _))
    |>.andThen (ErasesStep.field (.arrayOf (.free _))) : ErasesStep _ _) t
theorem CreatableReplicaAssignment19.within (version : Int16) (t : CreatableReplicaAssignment19) : Within (CreatableReplicaAssignment19.decodeA version t) 8 1 :=
  (((WithinStep.field .int32)
    |>.andThen (WithinStep.field .int32Array) : WithinStep _ _ _) t).mono (by decide) (by decide)

/-- message/messages.gen.go:5563-5574 `CreateableTopicConfig19.Decode`, with the memory it asks for -/
def CreateableTopicConfig19.decodeA (_version : Int16) : CreateableTopicConfig19 → ADec CreateableTopicConfig19 :=
    ADec.field ADec.string (fun t x => { t with Name := x }) ;>>
    ADec.field ADec.string (fun t x => { t with Value := x })
theorem CreateableTopicConfig19.erases (version : Int16) (t : CreateableTopicConfig19) : Erases (CreateableTopicConfig19.decodeA version t) (CreateableTopicConfig19.decode version t) :=
  ((ErasesStep.field .string)
    |>.andThen (ErasesStep.field .string) : ErasesStep _ _) t
theorem CreateableTopicConfig19.within (version : Int16) (t : CreateableTopicConfig19) : Within (CreateableTopicConfig19.decodeA version t) 4 0 :=
  (((WithinStep.field .string)
    |>.andThen (WithinStep.field .string) : WithinStep _ _ _) t).mono (by decide) (by decide)

/-- message/messages.gen.go:5467-5508 `CreatableTopic19.Decode`, with the memory it asks for -/
def CreatableTopic19.decodeA (version : Int16) : CreatableTopic19 → ADec CreatableTopic19 :=
    ADec.field ADec.string (fun t x => { t with Name := x }) ;>>
    ADec.field ADec.int32 (fun t x => { t with NumPartitions := x }) ;>>
    ADec.field ADec.int16 (fun t x => { t with ReplicationFactor := x }) ;>>
    ADec.fieldStructs (CreatableReplicaAssignment19.decodeA version {}) (·.Assignments) (fun t x => { t with Assignments := x }) ;>>
    ADec.fieldStructs (CreateableTopicConfig19.decodeA version {}) (·.Configs) (fun t x => { t with Configs := x })
theorem CreatableTopic19.erases (version : Int16) (t : CreatableTopic19) : Erases (CreatableTopic19.decodeA version t) (CreatableTopic19.decode version t) :=
  ((ErasesStep.field .string)
    |>.andThen (ErasesStep.field (.free _))
    |>.andThen (ErasesStep.field (.free _))
    |>.andThen (ErasesStep.structs (CreatableReplicaAssignment19.erases version {}))
    |>.andThen (ErasesStep.structs (CreateableTopicConfig19.erases version {})) : ErasesStep _ _) t
theorem CreatableTopic19.within (version : Int16) (t : CreatableTopic19) : Within (CreatableTopic19.decodeA version t) 16 2 :=
  (((WithinStep.field .string)
    |>.andThen (WithinStep.field .int32)
    |>.andThen (WithinStep.field .int16)
    |>.andThen (WithinStep.structs ((CreatableReplicaAssignment19.within version {}).mono (by decide) (Nat.le_refl _)))
    |>.andThen (WithinStep.structs ((CreateableTopicConfig19.within version {}).mono (by decide) (Nat.le_refl _))) : WithinStep _ _ _) t).mono (by decide) (by decide)

/-- message/messages.gen.go:5394-5420 `CreateTopicsRequest.Decode`, with the memory it asks for -/
def CreateTopicsRequest.decodeA (version : Int16) : CreateTopicsRequest → ADec CreateTopicsRequest :=
    ADec.fieldStructs (CreatableTopic19.decodeA version {}) (·.Topics) (fun t x => { t with Topics := x }) ;>>
    ADec.field ADec.int32 (fun t x => { t with timeoutMs := x }) ;>>
    ADec.onlyIf (version ≥ 1) (ADec.field ADec.bool (fun t x => { t with validateOnly := x }))
theorem CreateTopicsRequest.erases (version : Int16) (t : CreateTopicsRequest) : Erases (CreateTopicsRequest.decodeA version t) (CreateTopicsRequest.decode version t) :=
  ((ErasesStep.structs (CreatableTopic19.erases version {}))
    |>.andThen (ErasesStep.field (.free _))
    |>.andThen (ErasesStep.onlyIf (ErasesStep.field (.free _))) : ErasesStep _ _) t
theorem CreateTopicsRequest.within (version : Int16) (t : CreateTopicsRequest) : Within (CreateTopicsRequest.decodeA version t) 8 3 :=
  (((WithinStep.structs ((CreatableTopic19.within version {}).mono (by decide) (Nat.le_refl _)))
    |>.andThen (WithinStep.field .int32)
    |>.andThen (WithinStep.onlyIf (fun _ => WithinStep.field .bool)) : WithinStep _ _ _) t).mono (by decide) (by decide)

/-- message/messages.gen.go:5797-5830 `CreatableTopicConfigs19.Decode`, with the memory it asks for -/
def CreatableTopicConfigs19.decodeA (version : Int16) : CreatableTopicConfigs19 → ADec CreatableTopicConfigs19 :=
    ADec.onlyIf (version ≥ 5) (ADec.field ADec.string (fun t x => { t with Name := x })) ;>>
    ADec.onlyIf (version ≥ 5) (ADec.field ADec.string (fun t x => { t with Value := x })) ;>>
    ADec.onlyIf (version ≥ 5) (ADec.field ADec.bool (fun t x => { t with ReadOnly := x })) ;>>
    ADec.onlyIf (version ≥ 5) (ADec.field ADec.int8 (fun t x => { t with ConfigSource := x })) ;>>
    ADec.onlyIf (version ≥ 5) (ADec.field ADec.bool (fun t x => { t with IsSensitive := x }))
theorem CreatableTopicConfigs19.erases (version : Int16) (t : CreatableTopicConfigs19) : Erases (CreatableTopicConfigs19.decodeA version t) (CreatableTopicConfigs19.decode version t) :=
  ((ErasesStep.onlyIf (ErasesStep.field .string))
    |>.andThen (ErasesStep.onlyIf (ErasesStep.field .string))
    |>.andThen (ErasesStep.onlyIf (ErasesStep.field (.free _)))
    |>.andThen (ErasesStep.onlyIf (ErasesStep.field (.free _)))
    |>.andThen (ErasesStep.onlyIf (ErasesStep.field (.free _))) : ErasesStep _ _) t
theorem CreatableTopicConfigs19.within (version : Int16) (t : CreatableTopicConfigs19) (h : version ≥ 5) : Within (CreatableTopicConfigs19.decodeA version t) 2 0 :=
  (((WithinStep.present h (WithinStep.field .string))
    |>.andThen (WithinStep.onlyIf (fun _ => WithinStep.field .string))
    |>.andThen (WithinStep.onlyIf (fun _ => WithinStep.field .bool))
    |>.andThen (WithinStep.onlyIf (fun _ => WithinStep.field .int8))
    |>.andThen (WithinStep.onlyIf (fun _ => WithinStep.field .bool)) : WithinStep _ _ _) t).mono (by decide) (by decide)

/-- message/messages.gen.go:5696-5746 `CreatableTopicResult19.Decode`, with the memory it asks for -/
def CreatableTopicResult19.decodeA (version : Int16) : CreatableTopicResult19 → ADec CreatableTopicResult19 :=
    ADec.field ADec.string (fun t x => { t with Name := x }) ;>>
    ADec.field ADec.int16 (fun t x => { t with ErrorCode := x }) ;>>
    ADec.onlyIf (version ≥ 1) (ADec.field ADec.string (fun t x => { t with ErrorMessage := x })) ;>>
    ADec.onlyIf (version ≥ 5) (ADec.field ADec.int16 (fun t x => { t with TopicConfigErrorCode := x })) ;>>
    ADec.onlyIf (version ≥ 5) (ADec.field ADec.int32 (fun t x => { t with NumPartitions := x })) ;>>
    ADec.onlyIf (version ≥ 5) (ADec.field ADec.int16 (fun t x => { t with ReplicationFactor := x })) ;>>
    ADec.onlyIf (version ≥ 5) (ADec.fieldStructs (CreatableTopicConfigs19.decodeA version {}) (·.Configs) (fun t x => { t with Configs := x }))
theorem CreatableTopicResult19.erases (version : Int16) (t : CreatableTopicResult19) : Erases (CreatableTopicResult19.decodeA version t) (CreatableTopicResult19.decode version t) :=
  ((ErasesStep.field .string)
    |>.andThen (ErasesStep.field (.free _))
    |>.andThen (ErasesStep.onlyIf (ErasesStep.field .string))
    |>.andThen (ErasesStep.onlyIf (ErasesStep.field (.free _)))
    |>.andThen (ErasesStep.onlyIf (ErasesStep.field (.free _)))
    |>.andThen (ErasesStep.onlyIf (ErasesStep.field (.free _)))
    |>.andThen (ErasesStep.onlyIf (ErasesStep.structs (CreatableTopicConfigs19.erases version {}))) : ErasesStep _ _) t
theorem CreatableTopicResult19.within (version : Int16) (t : CreatableTopicResult19) : Within (CreatableTopicResult19.decodeA version t) 4 1 :=
  (((WithinStep.field .string)
    |>.andThen (WithinStep.field .int16)
    |>.andThen (WithinStep.onlyIf (fun _ => WithinStep.field .string))
    |>.andThen (WithinStep.onlyIf (fun _ => WithinStep.field .int16))
    |>.andThen (WithinStep.onlyIf (fun _ => WithinStep.field .int32))
    |>.andThen (WithinStep.onlyIf (fun _ => WithinStep.field .int16))
    |>.andThen (WithinStep.onlyIf (fun h => WithinStep.structs ((CreatableTopicConfigs19.within version {} h).mono (by decide) (Nat.le_refl _)))) : WithinStep _ _ _) t).mono (by decide) (by decide)

/-- message/messages.gen.go:5609-5631 `CreateTopicsResponse.Decode`, with the memory it asks for -/
def CreateTopicsResponse.decodeA (version : Int16) : CreateTopicsResponse → ADec CreateTopicsResponse :=
    ADec.onlyIf (version ≥ 2) (ADec.field ADec.int32 (fun t x => { t with ThrottleTimeMs := x })) ;>>
    ADec.fieldStructs (CreatableTopicResult19.decodeA version {}) (·.Topics) (fun t x => { t with Topics := x })
theorem CreateTopicsResponse.erases (version : Int16) (t : CreateTopicsResponse) : Erases (CreateTopicsResponse.decodeA version t) (CreateTopicsResponse.decode version t) :=
  ((ErasesStep.onlyIf (ErasesStep.field (.free _)))
    |>.andThen (ErasesStep.structs (CreatableTopicResult19.erases version {})) : ErasesStep _ _) t
theorem CreateTopicsResponse.within (version : Int16) (t : CreateTopicsResponse) : Within (CreateTopicsResponse.decodeA version t) 4 2 :=
  (((WithinStep.onlyIf (fun _ => WithinStep.field .int32))
    |>.andThen (WithinStep.structs ((CreatableTopicResult19.within version {}).mono (by decide) (Nat.le_refl _))) : WithinStep _ _ _) t).mono (by decide) (by decide)

end Kafka.Msg
