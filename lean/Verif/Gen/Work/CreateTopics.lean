import Verif.Message.Work
import Verif.Gen.Model.CreateTopics
/-!
Generated by tools/gen_messages.py: steps taken by decoding the CreateTopics messages.
-/
namespace Kafka.Msg

/-- message/messages.gen.go:5530-5541 `CreatableReplicaAssignment19.Decode`, with the steps it takes -/
def CreatableReplicaAssignment19.decodeW (_version : Int16) : CreatableReplicaAssignment19 → ADec CreatableReplicaAssignment19 :=
    ADec.field WDec.int32 (fun t x => { t with PartitionIndex := x }) ;>>
    ADec.field WDec.int32Array (fun t x => { t with BrokerIds := x })
theorem CreatableReplicaAssignment19.erasesW (version : Int16) (t : CreatableReplicaAssignment19) : Erases (CreatableReplicaAssignment19.decodeW version t) (CreatableReplicaAssignment19.decode version t) :=
  ((ErasesStep.field (.read _))
    |>.andThen (ErasesStep.field (.arrayOfW (.read _))) : ErasesStep _ _) t
theorem CreatableReplicaAssignment19.spends (version : Int16) (t : CreatableReplicaAssignment19) : Spends (CreatableReplicaAssignment19.decodeW version t) 14 1 :=
  (((SpendsStep.field .int32)
    |>.andThen (SpendsStep.field .int32Array) : SpendsStep _ _) t).mono (by decide) (by decide)
theorem CreatableReplicaAssignment19.spends0 (version : Int16) (t : CreatableReplicaAssignment19) : Spends (CreatableReplicaAssignment19.decodeW version t) 0 1 :=
  (CreatableReplicaAssignment19.spends version t).mono (Nat.zero_le _) (Nat.le_refl _)

/-- message/messages.gen.go:5563-5574 `CreateableTopicConfig19.Decode`, with the steps it takes -/
def CreateableTopicConfig19.decodeW (_version : Int16) : CreateableTopicConfig19 → ADec CreateableTopicConfig19 :=
    ADec.field WDec.string (fun t x => { t with Name := x }) ;>>
    ADec.field WDec.string (fun t x => { t with Value := x })
theorem CreateableTopicConfig19.erasesW (version : Int16) (t : CreateableTopicConfig19) : Erases (CreateableTopicConfig19.decodeW version t) (CreateableTopicConfig19.decode version t) :=
  ((ErasesStep.field .stringW)
    |>.andThen (ErasesStep.field .stringW) : ErasesStep _ _) t
theorem CreateableTopicConfig19.spends (version : Int16) (t : CreateableTopicConfig19) : Spends (CreateableTopicConfig19.decodeW version t) 6 1 :=
  (((SpendsStep.field .string)
    |>.andThen (SpendsStep.field .string) : SpendsStep _ _) t).mono (by decide) (by decide)
theorem CreateableTopicConfig19.spends0 (version : Int16) (t : CreateableTopicConfig19) : Spends (CreateableTopicConfig19.decodeW version t) 0 1 :=
  (CreateableTopicConfig19.spends version t).mono (Nat.zero_le _) (Nat.le_refl _)

/-- message/messages.gen.go:5467-5508 `CreatableTopic19.Decode`, with the steps it takes -/
def CreatableTopic19.decodeW (version : Int16) : CreatableTopic19 → ADec CreatableTopic19 :=
    ADec.field WDec.string (fun t x => { t with Name := x }) ;>>
    ADec.field WDec.int32 (fun t x => { t with NumPartitions := x }) ;>>
    ADec.field WDec.int16 (fun t x => { t with ReplicationFactor := x }) ;>>
    WDec.fieldStructs (CreatableReplicaAssignment19.decodeW version {}) (·.Assignments) (fun t x => { t with Assignments := x }) ;>>
    WDec.fieldStructs (CreateableTopicConfig19.decodeW version {}) (·.Configs) (fun t x => { t with Configs := x })
theorem CreatableTopic19.erasesW (version : Int16) (t : CreatableTopic19) : Erases (CreatableTopic19.decodeW version t) (CreatableTopic19.decode version t) :=
  ((ErasesStep.field .stringW)
    |>.andThen (ErasesStep.field (.read _))
    |>.andThen (ErasesStep.field (.read _))
    |>.andThen (ErasesStep.structsW (CreatableReplicaAssignment19.erasesW version {}))
    |>.andThen (ErasesStep.structsW (CreateableTopicConfig19.erasesW version {})) : ErasesStep _ _) t
theorem CreatableTopic19.spends (version : Int16) (t : CreatableTopic19) : Spends (CreatableTopic19.decodeW version t) 27 1 :=
  (((SpendsStep.field .string)
    |>.andThen (SpendsStep.field .int32)
    |>.andThen (SpendsStep.field .int16)
    |>.andThen (SpendsStep.structs ((CreatableReplicaAssignment19.spends version {}).mono (by decide) (Nat.le_refl _)))
    |>.andThen (SpendsStep.structs ((CreateableTopicConfig19.spends version {}).mono (by decide) (Nat.le_refl _))) : SpendsStep _ _) t).mono (by decide) (by decide)
theorem CreatableTopic19.spends0 (version : Int16) (t : CreatableTopic19) : Spends (CreatableTopic19.decodeW version t) 0 1 :=
  (CreatableTopic19.spends version t).mono (Nat.zero_le _) (Nat.le_refl _)

/-- message/messages.gen.go:5394-5420 `CreateTopicsRequest.Decode`, with the steps it takes -/
def CreateTopicsRequest.decodeW (version : Int16) : CreateTopicsRequest → ADec CreateTopicsRequest :=
    WDec.fieldStructs (CreatableTopic19.decodeW version {}) (·.Topics) (fun t x => { t with Topics := x }) ;>>
    ADec.field WDec.int32 (fun t x => { t with timeoutMs := x }) ;>>
    ADec.onlyIf (version ≥ 1) (ADec.field WDec.bool (fun t x => { t with validateOnly := x }))
theorem CreateTopicsRequest.erasesW (version : Int16) (t : CreateTopicsRequest) : Erases (CreateTopicsRequest.decodeW version t) (CreateTopicsRequest.decode version t) :=
  ((ErasesStep.structsW (CreatableTopic19.erasesW version {}))
    |>.andThen (ErasesStep.field (.read _))
    |>.andThen (ErasesStep.onlyIf (ErasesStep.field (.read _))) : ErasesStep _ _) t
theorem CreateTopicsRequest.spends (version : Int16) (t : CreateTopicsRequest) : Spends (CreateTopicsRequest.decodeW version t) 14 1 :=
  (((SpendsStep.structs ((CreatableTopic19.spends version {}).mono (by decide) (Nat.le_refl _)))
    |>.andThen (SpendsStep.field .int32)
    |>.andThen (SpendsStep.onlyIf (fun _ => SpendsStep.field .bool)) : SpendsStep _ _) t).mono (by decide) (by decide)
theorem CreateTopicsRequest.spends0 (version : Int16) (t : CreateTopicsRequest) : Spends (CreateTopicsRequest.decodeW version t) 0 1 :=
  (CreateTopicsRequest.spends version t).mono (Nat.zero_le _) (Nat.le_refl _)

/-- message/messages.gen.go:5797-5830 `CreatableTopicConfigs19.Decode`, with the steps it takes -/
def CreatableTopicConfigs19.decodeW (version : Int16) : CreatableTopicConfigs19 → ADec CreatableTopicConfigs19 :=
    ADec.onlyIf (version ≥ 5) (ADec.field WDec.string (fun t x => { t with Name := x })) ;>>
    ADec.onlyIf (version ≥ 5) (ADec.field WDec.string (fun t x => { t with Value := x })) ;>>
    ADec.onlyIf (version ≥ 5) (ADec.field WDec.bool (fun t x => { t with ReadOnly := x })) ;>>
    ADec.onlyIf (version ≥ 5) (ADec.field WDec.int8 (fun t x => { t with ConfigSource := x })) ;>>
    ADec.onlyIf (version ≥ 5) (ADec.field WDec.bool (fun t x => { t with IsSensitive := x }))
theorem CreatableTopicConfigs19.erasesW (version : Int16) (t : CreatableTopicConfigs19) : Erases (CreatableTopicConfigs19.decodeW version t) (CreatableTopicConfigs19.decode version t) :=
  ((ErasesStep.onlyIf (ErasesStep.field .stringW))
    |>.andThen (ErasesStep.onlyIf (ErasesStep.field .stringW))
    |>.andThen (ErasesStep.onlyIf (ErasesStep.field (.read _)))
    |>.andThen (ErasesStep.onlyIf (ErasesStep.field (.read _)))
    |>.andThen (ErasesStep.onlyIf (ErasesStep.field (.read _))) : ErasesStep _ _) t
theorem CreatableTopicConfigs19.spends (version : Int16) (t : CreatableTopicConfigs19) (h : version ≥ 5) : Spends (CreatableTopicConfigs19.decodeW version t) 3 1 :=
  (((SpendsStep.present h (SpendsStep.field .string))
    |>.andThen (SpendsStep.onlyIf (fun _ => SpendsStep.field .string))
    |>.andThen (SpendsStep.onlyIf (fun _ => SpendsStep.field .bool))
    |>.andThen (SpendsStep.onlyIf (fun _ => SpendsStep.field .int8))
    |>.andThen (SpendsStep.onlyIf (fun _ => SpendsStep.field .bool)) : SpendsStep _ _) t).mono (by decide) (by decide)
theorem CreatableTopicConfigs19.spends0 (version : Int16) (t : CreatableTopicConfigs19) : Spends (CreatableTopicConfigs19.decodeW version t) 0 1 :=
  (((SpendsStep.onlyIf (fun _ => SpendsStep.field .string))
    |>.andThen (SpendsStep.onlyIf (fun _ => SpendsStep.field .string))
    |>.andThen (SpendsStep.onlyIf (fun _ => SpendsStep.field .bool))
    |>.andThen (SpendsStep.onlyIf (fun _ => SpendsStep.field .int8))
    |>.andThen (SpendsStep.onlyIf (fun _ => SpendsStep.field .bool)) : SpendsStep _ _) t).mono (by decide) (by decide)

/-- message/messages.gen.go:5696-5746 `CreatableTopicResult19.Decode`, with the steps it takes -/
def CreatableTopicResult19.decodeW (version : Int16) : CreatableTopicResult19 → ADec CreatableTopicResult19 :=
    ADec.field WDec.string (fun t x => { t with Name := x }) ;>>
    ADec.field WDec.int16 (fun t x => { t with ErrorCode := x }) ;>>
    ADec.onlyIf (version ≥ 1) (ADec.field WDec.string (fun t x => { t with ErrorMessage := x })) ;>>
    ADec.onlyIf (version ≥ 5) (ADec.field WDec.int16 (fun t x => { t with TopicConfigErrorCode := x })) ;>>
    ADec.onlyIf (version ≥ 5) (ADec.field WDec.int32 (fun t x => { t with NumPartitions := x })) ;>>
    ADec.onlyIf (version ≥ 5) (ADec.field WDec.int16 (fun t x => { t with ReplicationFactor := x })) ;>>
    ADec.onlyIf (version ≥ 5) (WDec.fieldStructs (CreatableTopicConfigs19.decodeW version {}) (·.Configs) (fun t x => { t with Configs := x }))
theorem CreatableTopicResult19.erasesW (version : Int16) (t : CreatableTopicResult19) : Erases (CreatableTopicResult19.decodeW version t) (CreatableTopicResult19.decode version t) :=
  ((ErasesStep.field .stringW)
    |>.andThen (ErasesStep.field (.read _))
    |>.andThen (ErasesStep.onlyIf (ErasesStep.field .stringW))
    |>.andThen (ErasesStep.onlyIf (ErasesStep.field (.read _)))
    |>.andThen (ErasesStep.onlyIf (ErasesStep.field (.read _)))
    |>.andThen (ErasesStep.onlyIf (ErasesStep.field (.read _)))
    |>.andThen (ErasesStep.onlyIf (ErasesStep.structsW (CreatableTopicConfigs19.erasesW version {}))) : ErasesStep _ _) t
theorem CreatableTopicResult19.spends (version : Int16) (t : CreatableTopicResult19) : Spends (CreatableTopicResult19.decodeW version t) 6 1 :=
  (((SpendsStep.field .string)
    |>.andThen (SpendsStep.field .int16)
    |>.andThen (SpendsStep.onlyIf (fun _ => SpendsStep.field .string))
    |>.andThen (SpendsStep.onlyIf (fun _ => SpendsStep.field .int16))
    |>.andThen (SpendsStep.onlyIf (fun _ => SpendsStep.field .int32))
    |>.andThen (SpendsStep.onlyIf (fun _ => SpendsStep.field .int16))
    |>.andThen (SpendsStep.onlyIf (fun h => SpendsStep.structs ((CreatableTopicConfigs19.spends version {} h).mono (by decide) (Nat.le_refl _)))) : SpendsStep _ _) t).mono (by decide) (by decide)
theorem CreatableTopicResult19.spends0 (version : Int16) (t : CreatableTopicResult19) : Spends (CreatableTopicResult19.decodeW version t) 0 1 :=
  (CreatableTopicResult19.spends version t).mono (Nat.zero_le _) (Nat.le_refl _)

/-- message/messages.gen.go:5609-5631 `CreateTopicsResponse.Decode`, with the steps it takes -/
def CreateTopicsResponse.decodeW (version : Int16) : CreateTopicsResponse → ADec CreateTopicsResponse :=
    ADec.onlyIf (version ≥ 2) (ADec.field WDec.int32 (fun t x => { t with ThrottleTimeMs := x })) ;>>
    WDec.fieldStructs (CreatableTopicResult19.decodeW version {}) (·.Topics) (fun t x => { t with Topics := x })
theorem CreateTopicsResponse.erasesW (version : Int16) (t : CreateTopicsResponse) : Erases (CreateTopicsResponse.decodeW version t) (CreateTopicsResponse.decode version t) :=
  ((ErasesStep.onlyIf (ErasesStep.field (.read _)))
    |>.andThen (ErasesStep.structsW (CreatableTopicResult19.erasesW version {})) : ErasesStep _ _) t
theorem CreateTopicsResponse.spends (version : Int16) (t : CreateTopicsResponse) : Spends (CreateTopicsResponse.decodeW version t) 7 1 :=
  (((SpendsStep.onlyIf (fun _ => SpendsStep.field .int32))
    |>.andThen (SpendsStep.structs ((CreatableTopicResult19.spends version {}).mono (by decide) (Nat.le_refl _))) : SpendsStep _ _) t).mono (by decide) (by decide)
theorem CreateTopicsResponse.spends0 (version : Int16) (t : CreateTopicsResponse) : Spends (CreateTopicsResponse.decodeW version t) 0 1 :=
  (CreateTopicsResponse.spends version t).mono (Nat.zero_le _) (Nat.le_refl _)

/-- The structures of the CreateTopics messages. -/
def workCreateTopics : List (Σ M : MsgType, Int16 → M.T → ADec M.T) :=
  [⟨CreateTopicsRequest.type, CreateTopicsRequest.decodeW⟩,
   ⟨CreatableTopic19.type, CreatableTopic19.decodeW⟩,
   ⟨CreatableReplicaAssignment19.type, CreatableReplicaAssignment19.decodeW⟩,
   ⟨CreateableTopicConfig19.type, CreateableTopicConfig19.decodeW⟩,
   ⟨CreateTopicsResponse.type, CreateTopicsResponse.decodeW⟩,
   ⟨CreatableTopicResult19.type, CreatableTopicResult19.decodeW⟩,
   ⟨CreatableTopicConfigs19.type, CreatableTopicConfigs19.decodeW⟩]
theorem workCreateTopics_erases : ∀ p ∈ workCreateTopics, ∀ v t, Erases (p.2 v t) (p.1.decode v t) := by
  unfold workCreateTopics
  simp only [List.forall_mem_cons]
  exact ⟨CreateTopicsRequest.erasesW, CreatableTopic19.erasesW, CreatableReplicaAssignment19.erasesW, CreateableTopicConfig19.erasesW, CreateTopicsResponse.erasesW, CreatableTopicResult19.erasesW, CreatableTopicConfigs19.erasesW, fun _ h => absurd h (by simp)⟩
theorem workCreateTopics_spends : ∀ p ∈ workCreateTopics, ∀ v t, Spends (p.2 v t) 0 1 := by
  unfold workCreateTopics
  simp only [List.forall_mem_cons]
  exact ⟨CreateTopicsRequest.spends0, CreatableTopic19.spends0, CreatableReplicaAssignment19.spends0, CreateableTopicConfig19.spends0, CreateTopicsResponse.spends0, CreatableTopicResult19.spends0, CreatableTopicConfigs19.spends0, fun _ h => absurd h (by simp)⟩

end Kafka.Msg
