import Verif.Message.AllocLemmas
import Verif.Gen.Model.UpdateMetadata
/-!
Generated by tools/gen_messages.py: memory asked for by decoding the UpdateMetadata messages.
-/
namespace Kafka.Msg

/-- message/messages.gen.go:3091-3134 `UpdateMetadataPartitionState6.Decode`, with the memory it asks for -/
def UpdateMetadataPartitionState6.decodeA (version : Int16) : UpdateMetadataPartitionState6 → ADec UpdateMetadataPartitionState6 :=
    ADec.onlyIf (version ≥ 0 ∧ version ≤ 4) (ADec.field ADec.string (fun t x => { t with TopicName := x })) ;>>
    ADec.field ADec.int32 (fun t x => { t with PartitionIndex := x }) ;>>
    ADec.field ADec.int32 (fun t x => { t with ControllerEpoch := x }) ;>>
    ADec.field ADec.int32 (fun t x => { t with Leader := x }) ;>>
    ADec.field ADec.int32 (fun t x => { t with LeaderEpoch := x }) ;>>
    ADec.field ADec.int32Array (fun t x => { t with Isr := x }) ;>>
    ADec.field ADec.int32 (fun t x => { t with ZkVersion := x }) ;>>
    ADec.field ADec.int32Array (fun t x => { t with Replicas := x }) ;>>
    ADec.onlyIf (version ≥ 4) (ADec.field ADec.int32Array (fun t x => { t with OfflineReplicas := x }))
theorem UpdateMetadataPartitionState6.erases (version : Int16) (t : UpdateMetadataPartitionState6) : Erases (UpdateMetadataPartitionState6.decodeA version t) (UpdateMetadataPartitionState6.decode version t) :=
  ((ErasesStep.onlyIf (ErasesStep.field .string))
    |>.andThen (ErasesStep.field (.free _))
    |>.andThen (ErasesStep.field (.free _))
    |>.andThen (ErasesStep.field (.free _))
    |>.andThen (ErasesStep.field (.free _))
    |>.andThen (ErasesStep.field (.arrayOf (.free _)))
    |>.andThen (ErasesStep.field (.free _))
    |>.andThen (ErasesStep.field (.arrayOf (.free _)))
    |>.andThen (ErasesStep.onlyIf (ErasesStep.field (.arrayOf (.free _)))) : ErasesStep _ _) t
theorem UpdateMetadataPartitionState6.within (version : Int16) (t : UpdateMetadataPartitionState6) : Within (UpdateMetadataPartitionState6.decodeA version t) 28 1 :=
  (((WithinStep.onlyIf (fun _ => WithinStep.field .string))
    |>.andThen (WithinStep.field .int32)
    |>.andThen (WithinStep.field .int32)
    |>.andThen (WithinStep.field .int32)
    |>.andThen (WithinStep.field .int32)
    |>.andThen (WithinStep.field .int32Array)
    |>.andThen (WithinStep.field .int32)
    |>.andThen (WithinStep.field .int32Array)
    |>.andThen (WithinStep.onlyIf (fun _ => WithinStep.field .int32Array)) : WithinStep _ _ _) t).mono (by decide) (by decide)

/-- message/messages.gen.go:2850-2874 `UpdateMetadataTopicState6.Decode`, with the memory it asks for -/
def UpdateMetadataTopicState6.decodeA (version : Int16) : UpdateMetadataTopicState6 → ADec UpdateMetadataTopicState6 :=
    ADec.onlyIf (version ≥ 5) (ADec.field ADec.string (fun t x => { t with TopicName := x })) ;>>
    ADec.onlyIf (version ≥ 5) (ADec.fieldStructs (UpdateMetadataPartitionState6.decodeA version {}) (·.PartitionStates) (fun t x => { t with PartitionStates := x }))
theorem UpdateMetadataTopicState6.erases (version : Int16) (t : UpdateMetadataTopicState6) : Erases (UpdateMetadataTopicState6.decodeA version t) (UpdateMetadataTopicState6.decode version t) :=
  ((ErasesStep.onlyIf (ErasesStep.field .string))
    |>.andThen (ErasesStep.onlyIf (ErasesStep.structs (UpdateMetadataPartitionState6.erases version {}))) : ErasesStep _ _) t
theorem UpdateMetadataTopicState6.within (version : Int16) (t : UpdateMetadataTopicState6) (h : version ≥ 5) : Within (UpdateMetadataTopicState6.decodeA version t) 2 2 :=
  (((WithinStep.present h (WithinStep.field .string))
    |>.andThen (WithinStep.onlyIf (fun _ => WithinStep.structs ((UpdateMetadataPartitionState6.within version {}).mono (by decide) (Nat.le_refl _)))) : WithinStep _ _ _) t).mono (by decide) (by decide)

/-- message/messages.gen.go:3013-3040 `UpdateMetadataEndpoint6.Decode`, with the memory it asks for -/
def UpdateMetadataEndpoint6.decodeA (version : Int16) : UpdateMetadataEndpoint6 → ADec UpdateMetadataEndpoint6 :=
    ADec.onlyIf (version ≥ 1) (ADec.field ADec.int32 (fun t x => { t with Port := x })) ;>>
    ADec.onlyIf (version ≥ 1) (ADec.field ADec.string (fun t x => { t with Host := x })) ;>>
    ADec.onlyIf (version ≥ 3) (ADec.field ADec.string (fun t x => { t with Listener := x })) ;>>
    ADec.onlyIf (version ≥ 1) (ADec.field ADec.int16 (fun t x => { t with SecurityProtocol := x }))
theorem UpdateMetadataEndpoint6.erases (version : Int16) (t : UpdateMetadataEndpoint6) : Erases (UpdateMetadataEndpoint6.decodeA version t) (UpdateMetadataEndpoint6.decode version t) :=
  ((ErasesStep.onlyIf (ErasesStep.field (.free _)))
    |>.andThen (ErasesStep.onlyIf (ErasesStep.field .string))
    |>.andThen (ErasesStep.onlyIf (ErasesStep.field .string))
    |>.andThen (ErasesStep.onlyIf (ErasesStep.field (.free _))) : ErasesStep _ _) t
theorem UpdateMetadataEndpoint6.within (version : Int16) (t : UpdateMetadataEndpoint6) (h : version ≥ 1) : Within (UpdateMetadataEndpoint6.decodeA version t) 4 0 :=
  (((WithinStep.present h (WithinStep.field .int32))
    |>.andThen (WithinStep.onlyIf (fun _ => WithinStep.field .string))
    |>.andThen (WithinStep.onlyIf (fun _ => WithinStep.field .string))
    |>.andThen (WithinStep.onlyIf (fun _ => WithinStep.field .int16)) : WithinStep _ _ _) t).mono (by decide) (by decide)

/-- message/messages.gen.go:2929-2969 `UpdateMetadataBroker6.Decode`, with the memory it asks for -/
def UpdateMetadataBroker6.decodeA (version : Int16) : UpdateMetadataBroker6 → ADec UpdateMetadataBroker6 :=
    ADec.field ADec.int32 (fun t x => { t with Id := x }) ;>>
    ADec.onlyIf (version ≥ 0 ∧ version ≤ 0) (ADec.field ADec.string (fun t x => { t with V0Host := x })) ;>>
    ADec.onlyIf (version ≥ 0 ∧ version ≤ 0) (ADec.field ADec.int32 (fun t x => { t with V0Port := x })) ;>>
    ADec.onlyIf (version ≥ 1) (ADec.fieldStructs (UpdateMetadataEndpoint6.decodeA version {}) (·.Endpoints) (fun t x => { t with Endpoints := x })) ;>>
    ADec.onlyIf (version ≥ 2) (ADec.field ADec.string (fun t x => { t with Rack := x }))
theorem UpdateMetadataBroker6.erases (version : Int16) (t : UpdateMetadataBroker6) : Erases (UpdateMetadataBroker6.decodeA version t) (UpdateMetadataBroker6.decode version t) :=
  ((ErasesStep.field (.free _))
    |>.andThen (ErasesStep.onlyIf (ErasesStep.field .string))
    |>.andThen (ErasesStep.onlyIf (ErasesStep.field (.free _)))
    |>.andThen (ErasesStep.onlyIf (ErasesStep.structs (UpdateMetadataEndpoint6.erases version {})))
    |>.andThen (ErasesStep.onlyIf (ErasesStep.field .string)) : ErasesStep _ _) t
theorem UpdateMetadataBroker6.within (version : Int16) (t : UpdateMetadataBroker6) : Within (UpdateMetadataBroker6.decodeA version t) 4 1 :=
  (((WithinStep.field .int32)
    |>.andThen (WithinStep.onlyIf (fun _ => WithinStep.field .string))
    |>.andThen (WithinStep.onlyIf (fun _ => WithinStep.field .int32))
    |>.andThen (WithinStep.onlyIf (fun h => WithinStep.structs ((UpdateMetadataEndpoint6.within version {} h).mono (by decide) (Nat.le_refl _))))
    |>.andThen (WithinStep.onlyIf (fun _ => WithinStep.field .string)) : WithinStep _ _ _) t).mono (by decide) (by decide)

/-- message/messages.gen.go:2752-2812 `UpdateMetadataRequest.Decode`, with the memory it asks for -/
def UpdateMetadataRequest.decodeA (version : Int16) : UpdateMetadataRequest → ADec UpdateMetadataRequest :=
    ADec.field ADec.int32 (fun t x => { t with ControllerId := x }) ;>>
    ADec.field ADec.int32 (fun t x => { t with ControllerEpoch := x }) ;>>
    ADec.onlyIf (version ≥ 5) (ADec.field ADec.int64 (fun t x => { t with BrokerEpoch := x })) ;>>
    ADec.onlyIf (version ≥ 0 ∧ version ≤ 4) (ADec.fieldStructs (UpdateMetadataPartitionState6.decodeA version {}) (·.UngroupedPartitionStates) (fun t x => { t with UngroupedPartitionStates := x })) ;>>
    ADec.onlyIf (version ≥ 5) (ADec.fieldStructs (UpdateMetadataTopicState6.decodeA version {}) (·.TopicStates) (fun t x => { t with TopicStates := x })) ;>>
    ADec.fieldStructs (UpdateMetadataBroker6.decodeA version {}) (·.LiveBrokers) (fun t x => { t with LiveBrokers := x })
theorem UpdateMetadataRequest.erases (version : Int16) (t : UpdateMetadataRequest) : Erases (UpdateMetadataRequest.decodeA version t) (UpdateMetadataRequest.decode version t) :=
  ((ErasesStep.field (.free _))
    |>.andThen (ErasesStep.field (.free _))
    |>.andThen (ErasesStep.onlyIf (ErasesStep.field (.free _)))
    |>.andThen (ErasesStep.onlyIf (ErasesStep.structs (UpdateMetadataPartitionState6.erases version {})))
    |>.andThen (ErasesStep.onlyIf (ErasesStep.structs (UpdateMetadataTopicState6.erases version {})))
    |>.andThen (ErasesStep.structs (UpdateMetadataBroker6.erases version {})) : ErasesStep _ _) t
theorem UpdateMetadataRequest.within (version : Int16) (t : UpdateMetadataRequest) : Within (UpdateMetadataRequest.decodeA version t) 12 3 :=
  (((WithinStep.field .int32)
    |>.andThen (WithinStep.field .int32)
    |>.andThen (WithinStep.onlyIf (fun _ => WithinStep.field .int64))
    |>.andThen (WithinStep.onlyIf (fun _ => WithinStep.structs ((UpdateMetadataPartitionState6.within version {}).mono (by decide) (Nat.le_refl _))))
    |>.andThen (WithinStep.onlyIf (fun h => WithinStep.structs ((UpdateMetadataTopicState6.within version {} h).mono (by decide) (Nat.le_refl _))))
    |>.andThen (WithinStep.structs ((UpdateMetadataBroker6.within version {}).mono (by decide) (Nat.le_refl _))) : WithinStep _ _ _) t).mono (by decide) (by decide)

/-- message/messages.gen.go:3154-3161 `UpdateMetadataResponse.Decode`, with the memory it asks for -/
def UpdateMetadataResponse.decodeA (_version : Int16) : UpdateMetadataResponse → ADec UpdateMetadataResponse :=
    ADec.field ADec.int16 (fun t x => { t with ErrorCode := x })
theorem UpdateMetadataResponse.erases (version : Int16) (t : UpdateMetadataResponse) : Erases (UpdateMetadataResponse.decodeA version t) (UpdateMetadataResponse.decode version t) :=
  (ErasesStep.field (.free _) : ErasesStep _ _) t
theorem UpdateMetadataResponse.within (version : Int16) (t : UpdateMetadataResponse) : Within (UpdateMetadataResponse.decodeA version t) 2 0 :=
  ((WithinStep.field .int16 : WithinStep _ _ _) t).mono (by decide) (by decide)

end Kafka.Msg
