import Verif.Message.AllocLemmas
import Verif.Gen.Model.Metadata
/-!
Generated by tools/gen_messages.py: memory asked for by decoding the Metadata messages.
-/
namespace Kafka.Msg

/-- message/messages.gen.go:1599-1606 `MetadataRequestTopic3.Decode`, with the memory it asks for -/
def MetadataRequestTopic3.decodeA (_version : Int16) : MetadataRequestTopic3 → ADec MetadataRequestTopic3 :=
    ADec.field ADec.string (fun t x => { t with Name := x })
theorem MetadataRequestTopic3.erases (version : Int16) (t : MetadataRequestTopic3) : Erases (MetadataRequestTopic3.decodeA version t) (MetadataRequestTopic3.decode version t) :=
  (ErasesStep.field .string : ErasesStep _ _) t
theorem MetadataRequestTopic3.within (version : Int16) (t : MetadataRequestTopic3) : Within (MetadataRequestTopic3.decodeA version t) 2 0 :=
  ((WithinStep.field .string : WithinStep _ _ _) t).mono (by decide) (by decide)

/-- message/messages.gen.go:1546-1580 `MetadataRequest.Decode`, with the memory it asks for -/
def MetadataRequest.decodeA (version : Int16) : MetadataRequest → ADec MetadataRequest :=
    ADec.fieldStructs (MetadataRequestTopic3.decodeA version {}) (·.Topics) (fun t x => { t with Topics := x }) ;>>
    ADec.onlyIf (version ≥ 4) (ADec.field ADec.bool (fun t x => { t with AllowAutoTopicCreation := x })) ;>>
    ADec.onlyIf (version ≥ 8) (ADec.field ADec.bool (fun t x => { t with IncludeClusterAuthorizedOperations := x })) ;>>
    ADec.onlyIf (version ≥ 8) (ADec.field ADec.bool (fun t x => { t with IncludeTopicAuthorizedOperations := x }))
theorem MetadataRequest.erases (version : Int16) (t : MetadataRequest) : Erases (MetadataRequest.decodeA version t) (MetadataRequest.decode version t) :=
  ((ErasesStep.structs (MetadataRequestTopic3.erases version {}))
    |>.andThen (ErasesStep.onlyIf (ErasesStep.field (.free _)))
    |>.andThen (ErasesStep.onlyIf (ErasesStep.field (.free _)))
    |>.andThen (ErasesStep.onlyIf (ErasesStep.field (.free _))) : ErasesStep _ _) t
theorem MetadataRequest.within (version : Int16) (t : MetadataRequest) : Within (MetadataRequest.decodeA version t) 4 1 :=
  (((WithinStep.structs ((MetadataRequestTopic3.within version {}).mono (by decide) (Nat.le_refl _)))
    |>.andThen (WithinStep.onlyIf (fun _ => WithinStep.field .bool))
    |>.andThen (WithinStep.onlyIf (fun _ => WithinStep.field .bool))
    |>.andThen (WithinStep.onlyIf (fun _ => WithinStep.field .bool)) : WithinStep _ _ _) t).mono (by decide) (by decide)

/-- message/messages.gen.go:1758-1779 `MetadataResponseBroker3.Decode`, with the memory it asks for -/
def MetadataResponseBroker3.decodeA (version : Int16) : MetadataResponseBroker3 → ADec MetadataResponseBroker3 :=
    ADec.field ADec.int32 (fun t x => { t with NodeId := x }) ;>>
    ADec.field ADec.string (fun t x => { t with Host := x }) ;>>
    ADec.field ADec.int32 (fun t x => { t with Port := x }) ;>>
    ADec.onlyIf (version ≥ 1) (ADec.field ADec.string (fun t x => { t with Rack := x }))
theorem MetadataResponseBroker3.erases (version : Int16) (t : MetadataResponseBroker3) : Erases (MetadataResponseBroker3.decodeA version t) (MetadataResponseBroker3.decode version t) :=
  ((ErasesStep.field (.free _))
    |>.andThen (ErasesStep.field .string)
    |>.andThen (ErasesStep.field (.free _))
    |>.andThen (ErasesStep.onlyIf (ErasesStep.field .string)) : ErasesStep _ _) t
theorem MetadataResponseBroker3.within (version : Int16) (t : MetadataResponseBroker3) : Within (MetadataResponseBroker3.decodeA version t) 10 0 :=
  (((WithinStep.field .int32)
    |>.andThen (WithinStep.field .string)
    |>.andThen (WithinStep.field .int32)
    |>.andThen (WithinStep.onlyIf (fun _ => WithinStep.field .string)) : WithinStep _ _ _) t).mono (by decide) (by decide)

/-- message/messages.gen.go:1907-1942 `MetadataResponsePartition3.Decode`, with the memory it asks for -/
def MetadataResponsePartition3.decodeA (version : Int16) : MetadataResponsePartition3 → ADec MetadataResponsePartition3 :=
    ADec.field ADec.int16 (fun t x => { t with ErrorCode := x }) ;>>
    ADec.field ADec.int32 (fun t x => { t with PartitionIndex := x }) ;>>
    ADec.field ADec.int32 (fun t x => { t with LeaderId := x }) ;>>
    ADec.onlyIf (version ≥ 7) (ADec.field ADec.int32 (fun t x => { t with LeaderEpoch := x })) ;>>
    ADec.field ADec.int32Array (fun t x => { t with ReplicaNodes := x }) ;>>
    ADec.field ADec.int32Array (fun t x => { t with IsrNodes := x }) ;>>
    ADec.onlyIf (version ≥ 5) (ADec.field ADec.int32Array (fun t x => { t with OfflineReplicas := x }))
theorem MetadataResponsePartition3.erases (version : Int16) (t : MetadataResponsePartition3) : Erases (MetadataResponsePartition3.decodeA version t) (MetadataResponsePartition3.decode version t) :=
  ((ErasesStep.field (.free _))
    |>.andThen (ErasesStep.field (.free _))
    |>.andThen (ErasesStep.field (.free _))
    |>.andThen (ErasesStep.onlyIf (ErasesStep.field (.free _)))
    |>.andThen (ErasesStep.field (.arrayOf (.free _)))
    |>.andThen (ErasesStep.field (.arrayOf (.free _)))
    |>.andThen (ErasesStep.onlyIf (ErasesStep.field (.arrayOf (.free _)))) : ErasesStep _ _) t
theorem MetadataResponsePartition3.within (version : Int16) (t : MetadataResponsePartition3) : Within (MetadataResponsePartition3.decodeA version t) 18 1 :=
  (((WithinStep.field .int16)
    |>.andThen (WithinStep.field .int32)
    |>.andThen (WithinStep.field .int32)
    |>.andThen (WithinStep.onlyIf (fun _ => WithinStep.field .int32))
    |>.andThen (WithinStep.field .int32Array)
    |>.andThen (WithinStep.field .int32Array)
    |>.andThen (WithinStep.onlyIf (fun _ => WithinStep.field .int32Array)) : WithinStep _ _ _) t).mono (by decide) (by decide)

/-- message/messages.gen.go:1826-1862 `MetadataResponseTopic3.Decode`, with the memory it asks for -/
def MetadataResponseTopic3.decodeA (version : Int16) : MetadataResponseTopic3 → ADec MetadataResponseTopic3 :=
    ADec.field ADec.int16 (fun t x => { t with ErrorCode := x }) ;>>
    ADec.field ADec.string (fun t x => { t with Name := x }) ;>>
    ADec.onlyIf (version ≥ 1) (ADec.field ADec.bool (fun t x => { t with IsInternal := x })) ;>>
    ADec.fieldStructs (MetadataResponsePartition3.decodeA version {}) (·.Partitions) (fun t x => { t with Partitions := x }) ;>>
    ADec.onlyIf (version ≥ 8) (ADec.field ADec.int32 (fun t x => { t with TopicAuthorizedOperations := x }))
theorem MetadataResponseTopic3.erases (version : Int16) (t : MetadataResponseTopic3) : Erases (MetadataResponseTopic3.decodeA version t) (MetadataResponseTopic3.decode version t) :=
  ((ErasesStep.field (.free _))
    |>.andThen (ErasesStep.field .string)
    |>.andThen (ErasesStep.onlyIf (ErasesStep.field (.free _)))
    |>.andThen (ErasesStep.structs (MetadataResponsePartition3.erases version {}))
    |>.andThen (ErasesStep.onlyIf (ErasesStep.field (.free _))) : ErasesStep _ _) t
theorem MetadataResponseTopic3.within (version : Int16) (t : MetadataResponseTopic3) : Within (MetadataResponseTopic3.decodeA version t) 8 2 :=
  (((WithinStep.field .int16)
    |>.andThen (WithinStep.field .string)
    |>.andThen (WithinStep.onlyIf (fun _ => WithinStep.field .bool))
    |>.andThen (WithinStep.structs ((MetadataResponsePartition3.within version {}).mono (by decide) (Nat.le_refl _)))
    |>.andThen (WithinStep.onlyIf (fun _ => WithinStep.field .int32)) : WithinStep _ _ _) t).mono (by decide) (by decide)

/-- message/messages.gen.go:1673-1726 `MetadataResponse.Decode`, with the memory it asks for -/
def MetadataResponse.decodeA (version : Int16) : MetadataResponse → ADec MetadataResponse :=
    ADec.onlyIf (version ≥ 3) (ADec.field ADec.int32 (fun t x => { t with ThrottleTimeMs := x })) ;>>
    ADec.fieldStructs (MetadataResponseBroker3.decodeA version {}) (·.Brokers) (fun t x => { t with Brokers := x }) ;>>
    ADec.onlyIf (version ≥ 2) (ADec.field ADec.string (fun t x => { t with ClusterId := x })) ;>>
    ADec.onlyIf (version ≥ 1) (ADec.field ADec.int32 (fun t x => { t with ControllerId := x })) ;>>
    ADec.fieldStructs (MetadataResponseTopic3.decodeA version {}) (·.Topics) (fun t x => { t with Topics := x }) ;>>
    ADec.onlyIf (version ≥ 8) (ADec.field ADec.int32 (fun t x => { t with ClusterAuthorizedOperations := x }))
theorem MetadataResponse.erases (version : Int16) (t : MetadataResponse) : Erases (MetadataResponse.decodeA version t) (MetadataResponse.decode version t) :=
  ((ErasesStep.onlyIf (ErasesStep.field (.free _)))
    |>.andThen (ErasesStep.structs (MetadataResponseBroker3.erases version {}))
    |>.andThen (ErasesStep.onlyIf (ErasesStep.field .string))
    |>.andThen (ErasesStep.onlyIf (ErasesStep.field (.free _)))
    |>.andThen (ErasesStep.structs (MetadataResponseTopic3.erases version {}))
    |>.andThen (ErasesStep.onlyIf (ErasesStep.field (.free _))) : ErasesStep _ _) t
theorem MetadataResponse.within (version : Int16) (t : MetadataResponse) : Within (MetadataResponse.decodeA version t) 8 3 :=
  (((WithinStep.onlyIf (fun _ => WithinStep.field .int32))
    |>.andThen (WithinStep.structs ((MetadataResponseBroker3.within version {}).mono (by decide) (Nat.le_refl _)))
    |>.andThen (WithinStep.onlyIf (fun _ => WithinStep.field .string))
    |>.andThen (WithinStep.onlyIf (fun _ => WithinStep.field .int32))
    |>.andThen (WithinStep.structs ((MetadataResponseTopic3.within version {}).mono (by decide) (Nat.le_refl _)))
    |>.andThen (WithinStep.onlyIf (fun _ => WithinStep.field .int32)) : WithinStep _ _ _) t).mono (by decide) (by decide)

end Kafka.Msg
