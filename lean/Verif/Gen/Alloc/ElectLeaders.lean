import Verif.Message.AllocLemmas
import Verif.Gen.Model.ElectLeaders
/-!
Generated by tools/gen_messages.py: memory asked for by decoding the ElectLeaders messages.
-/
namespace Kafka.Msg

/-- message/messages.gen.go:10676-10687 `TopicPartitions43.Decode`, with the memory it asks for -/
def TopicPartitions43.decodeA (_version : Int16) : TopicPartitions43 → ADec TopicPartitions43 :=
    ADec.field ADec.string (fun t x => { t with Topic := x }) ;>>
    ADec.field ADec.int32Array (fun t x => { t with PartitionId := x })
theorem TopicPartitions43.erases (version : Int16) (t : TopicPartitions43) : Erases (TopicPartitions43.decodeA version t) (TopicPartitions43.decode version t) :=
  ((ErasesStep.field .string)
    |>.andThen (ErasesStep.field (.arrayOf (.free _))) : ErasesStep _ _) t
theorem TopicPartitions43.within (version : Int16) (t : TopicPartitions43) : Within (TopicPartitions43.decodeA version t) 6 1 :=
  (((WithinStep.field .string)
    |>.andThen (WithinStep.field .int32Array) : WithinStep _ _ _) t).mono (by decide) (by decide)

/-- message/messages.gen.go:10628-10654 `ElectLeadersRequest.Decode`, with the memory it asks for -/
def ElectLeadersRequest.decodeA (version : Int16) : ElectLeadersRequest → ADec ElectLeadersRequest :=
    ADec.onlyIf (version ≥ 1) (ADec.field ADec.int8 (fun t x => { t with ElectionType := x })) ;>>
    ADec.fieldStructs (TopicPartitions43.decodeA version {}) (·.TopicPartitions) (fun t x => { t with TopicPartitions := x }) ;>>
    ADec.field ADec.int32 (fun t x => { t with TimeoutMs := x })
theorem ElectLeadersRequest.erases (version : Int16) (t : ElectLeadersRequest) : Erases (ElectLeadersRequest.decodeA version t) (ElectLeadersRequest.decode version t) :=
  ((ErasesStep.onlyIf (ErasesStep.field (.free _)))
    |>.andThen (ErasesStep.structs (TopicPartitions43.erases version {}))
    |>.andThen (ErasesStep.field (.free _)) : ErasesStep _ _) t
theorem ElectLeadersRequest.within (version : Int16) (t : ElectLeadersRequest) : Within (ElectLeadersRequest.decodeA version t) 8 2 :=
  (((WithinStep.onlyIf (fun _ => WithinStep.field .int8))
    |>.andThen (WithinStep.structs ((TopicPartitions43.within version {}).mono (by decide) (Nat.le_refl _)))
    |>.andThen (WithinStep.field .int32) : WithinStep _ _ _) t).mono (by decide) (by decide)

/-- message/messages.gen.go:10826-10841 `PartitionResult43.Decode`, with the memory it asks for -/
def PartitionResult43.decodeA (_version : Int16) : PartitionResult43 → ADec PartitionResult43 :=
    ADec.field ADec.int32 (fun t x => { t with PartitionId := x }) ;>>
    ADec.field ADec.int16 (fun t x => { t with ErrorCode := x }) ;>>
    ADec.field ADec.string (fun t x => { t with ErrorMessage := x })
theorem PartitionResult43.erases (version : Int16) (t : PartitionResult43) : Erases (PartitionResult43.decodeA version t) (PartitionResult43.decode version t) :=
  ((ErasesStep.field (.free _))
    |>.andThen (ErasesStep.field (.free _))
    |>.andThen (ErasesStep.field .string) : ErasesStep _ _) t
theorem PartitionResult43.within (version : Int16) (t : PartitionResult43) : Within (PartitionResult43.decodeA version t) 8 0 :=
  (((WithinStep.field .int32)
    |>.andThen (WithinStep.field .int16)
    |>.andThen (WithinStep.field .string) : WithinStep _ _ _) t).mono (by decide) (by decide)

/-- message/messages.gen.go:10781-10801 `ReplicaElectionResult43.Decode`, with the memory it asks for -/
def ReplicaElectionResult43.decodeA (version : Int16) : ReplicaElectionResult43 → ADec ReplicaElectionResult43 :=
    ADec.field ADec.string (fun t x => { t with Topic := x }) ;>>
    ADec.fieldStructs (PartitionResult43.decodeA version {}) (·.PartitionResult) (fun t x => { t with PartitionResult := x })
theorem ReplicaElectionResult43.erases (version : Int16) (t : ReplicaElectionResult43) : Erases (ReplicaElectionResult43.decodeA version t) (ReplicaElectionResult43.decode version t) :=
  ((ErasesStep.field .string)
    |>.andThen (ErasesStep.structs (PartitionResult43.erases version {})) : ErasesStep _ _) t
theorem ReplicaElectionResult43.within (version : Int16) (t : ReplicaElectionResult43) : Within (ReplicaElectionResult43.decodeA version t) 6 1 :=
  (((WithinStep.field .string)
    |>.andThen (WithinStep.structs ((PartitionResult43.within version {}).mono (by decide) (Nat.le_refl _))) : WithinStep _ _ _) t).mono (by decide) (by decide)

/-- message/messages.gen.go:10725-10751 `ElectLeadersResponse.Decode`, with the memory it asks for -/
def ElectLeadersResponse.decodeA (version : Int16) : ElectLeadersResponse → ADec ElectLeadersResponse :=
    ADec.field ADec.int32 (fun t x => { t with ThrottleTimeMs := x }) ;>>
    ADec.onlyIf (version ≥ 1) (ADec.field ADec.int16 (fun t x => { t with ErrorCode := x })) ;>>
    ADec.fieldStructs (ReplicaElectionResult43.decodeA version {}) (·.ReplicaElectionResults) (fun t x => { t with ReplicaElectionResults := x })
theorem ElectLeadersResponse.erases (version : Int16) (t : ElectLeadersResponse) : Erases (ElectLeadersResponse.decodeA version t) (ElectLeadersResponse.decode version t) :=
  ((ErasesStep.field (.free _))
    |>.andThen (ErasesStep.onlyIf (ErasesStep.field (.free _)))
    |>.andThen (ErasesStep.structs (ReplicaElectionResult43.erases version {})) : ErasesStep _ _) t
theorem ElectLeadersResponse.within (version : Int16) (t : ElectLeadersResponse) : Within (ElectLeadersResponse.decodeA version t) 8 2 :=
  (((WithinStep.field .int32)
    |>.andThen (WithinStep.onlyIf (fun _ => WithinStep.field .int16))
    |>.andThen (WithinStep.structs ((ReplicaElectionResult43.within version {}).mono (by decide) (Nat.le_refl _))) : WithinStep _ _ _) t).mono (by decide) (by decide)

end Kafka.Msg
