import Verif.Message.AllocLemmas
import Verif.Gen.Model.AlterPartitionReassignments
/-!
Generated by tools/gen_messages.py: memory asked for by decoding the AlterPartitionReassignments messages.
-/
namespace Kafka.Msg

/-- message/messages.gen.go:11210-11221 `ReassignablePartition45.Decode`, with the memory it asks for -/
def ReassignablePartition45.decodeA (_version : Int16) : ReassignablePartition45 → ADec ReassignablePartition45 :=
    ADec.field ADec.int32 (fun t x => { t with PartitionIndex := x }) ;>>
    ADec.field ADec.int32Array (fun t x => { t with Replicas := x })
theorem ReassignablePartition45.erases (version : Int16) (t : ReassignablePartition45) : Erases (ReassignablePartition45.decodeA version t) (ReassignablePartition45.decode version t) :=
  ((ErasesStep.field (.free _))
    |>.andThen (ErasesStep.field (.arrayOf (.free _))) : ErasesStep _ _) t
theorem ReassignablePartition45.within (version : Int16) (t : ReassignablePartition45) : Within (ReassignablePartition45.decodeA version t) 8 1 :=
  (((WithinStep.field .int32)
    |>.andThen (WithinStep.field .int32Array) : WithinStep _ _ _) t).mono (by decide) (by decide)

/-- message/messages.gen.go:11168-11188 `ReassignableTopic45.Decode`, with the memory it asks for -/
def ReassignableTopic45.decodeA (version : Int16) : ReassignableTopic45 → ADec ReassignableTopic45 :=
    ADec.field ADec.string (fun t x => { t with Name := x }) ;>>
    ADec.fieldStructs (ReassignablePartition45.decodeA version {}) (·.Partitions) (fun t x => { t with Partitions := x })
theorem ReassignableTopic45.erases (version : Int16) (t : ReassignableTopic45) : Erases (ReassignableTopic45.decodeA version t) (ReassignableTopic45.decode version t) :=
  ((ErasesStep.field .string)
    |>.andThen (ErasesStep.structs (ReassignablePartition45.erases version {})) : ErasesStep _ _) t
theorem ReassignableTopic45.within (version : Int16) (t : ReassignableTopic45) : Within (ReassignableTopic45.decodeA version t) 6 2 :=
  (((WithinStep.field .string)
    |>.andThen (WithinStep.structs ((ReassignablePartition45.within version {}).mono (by decide) (Nat.le_refl _))) : WithinStep _ _ _) t).mono (by decide) (by decide)

/-- message/messages.gen.go:11118-11138 `AlterPartitionReassignmentsRequest.Decode`, with the memory it asks for -/
def AlterPartitionReassignmentsRequest.decodeA (version : Int16) : AlterPartitionReassignmentsRequest → ADec AlterPartitionReassignmentsRequest :=
    ADec.field ADec.int32 (fun t x => { t with TimeoutMs := x }) ;>>
    ADec.fieldStructs (ReassignableTopic45.decodeA version {}) (·.Topics) (fun t x => { t with Topics := x })
theorem AlterPartitionReassignmentsRequest.erases (version : Int16) (t : AlterPartitionReassignmentsRequest) : Erases (AlterPartitionReassignmentsRequest.decodeA version t) (AlterPartitionReassignmentsRequest.decode version t) :=
  ((ErasesStep.field (.free _))
    |>.andThen (ErasesStep.structs (ReassignableTopic45.erases version {})) : ErasesStep _ _) t
theorem AlterPartitionReassignmentsRequest.within (version : Int16) (t : AlterPartitionReassignmentsRequest) : Within (AlterPartitionReassignmentsRequest.decodeA version t) 8 3 :=
  (((WithinStep.field .int32)
    |>.andThen (WithinStep.structs ((ReassignableTopic45.within version {}).mono (by decide) (Nat.le_refl _))) : WithinStep _ _ _) t).mono (by decide) (by decide)

/-- message/messages.gen.go:11361-11376 `ReassignablePartitionResponse45.Decode`, with the memory it asks for -/
def ReassignablePartitionResponse45.decodeA (_version : Int16) : ReassignablePartitionResponse45 → ADec ReassignablePartitionResponse45 :=
    ADec.field ADec.int32 (fun t x => { t with PartitionIndex := x }) ;>>
    ADec.field ADec.int16 (fun t x => { t with ErrorCode := x }) ;>>
    ADec.field ADec.string (fun t x => { t with ErrorMessage := x })
theorem ReassignablePartitionResponse45.erases (version : Int16) (t : ReassignablePartitionResponse45) : Erases (ReassignablePartitionResponse45.decodeA version t) (ReassignablePartitionResponse45.decode version t) :=
  ((ErasesStep.field (.free _))
    |>.andThen (ErasesStep.field (.free _))
    |>.andThen (ErasesStep.field .string) : ErasesStep _ _) t
theorem ReassignablePartitionResponse45.within (version : Int16) (t : ReassignablePartitionResponse45) : Within (ReassignablePartitionResponse45.decodeA version t) 8 0 :=
  (((WithinStep.field .int32)
    |>.andThen (WithinStep.field .int16)
    |>.andThen (WithinStep.field .string) : WithinStep _ _ _) t).mono (by decide) (by decide)

/-- message/messages.gen.go:11316-11336 `ReassignableTopicResponse45.Decode`, with the memory it asks for -/
def ReassignableTopicResponse45.decodeA (version : Int16) : ReassignableTopicResponse45 → ADec ReassignableTopicResponse45 :=
    ADec.field ADec.string (fun t x => { t with Name := x }) ;>>
    ADec.fieldStructs (ReassignablePartitionResponse45.decodeA version {}) (·.Partitions) (fun t x => { t with Partitions := x })
theorem ReassignableTopicResponse45.erases (version : Int16) (t : ReassignableTopicResponse45) : Erases (ReassignableTopicResponse45.decodeA version t) (ReassignableTopicResponse45.decode version t) :=
  ((ErasesStep.field .string)
    |>.andThen (ErasesStep.structs (ReassignablePartitionResponse45.erases version {})) : ErasesStep _ _) t
theorem ReassignableTopicResponse45.within (version : Int16) (t : ReassignableTopicResponse45) : Within (ReassignableTopicResponse45.decodeA version t) 6 1 :=
  (((WithinStep.field .string)
    |>.andThen (WithinStep.structs ((ReassignablePartitionResponse45.within version {}).mono (by decide) (Nat.le_refl _))) : WithinStep _ _ _) t).mono (by decide) (by decide)

/-- message/messages.gen.go:11258-11286 `AlterPartitionReassignmentsResponse.Decode`, with the memory it asks for -/
def AlterPartitionReassignmentsResponse.decodeA (version : Int16) : AlterPartitionReassignmentsResponse → ADec AlterPartitionReassignmentsResponse :=
    ADec.field ADec.int32 (fun t x => { t with ThrottleTimeMs := x }) ;>>
    ADec.field ADec.int16 (fun t x => { t with ErrorCode := x }) ;>>
    ADec.field ADec.string (fun t x => { t with ErrorMessage := x }) ;>>
    ADec.fieldStructs (ReassignableTopicResponse45.decodeA version {}) (·.Responses) (fun t x => { t with Responses := x })
theorem AlterPartitionReassignmentsResponse.erases (version : Int16) (t : AlterPartitionReassignmentsResponse) : Erases (AlterPartitionReassignmentsResponse.decodeA version t) (AlterPartitionReassignmentsResponse.decode version t) :=
  ((ErasesStep.field (.free _))
    |>.andThen (ErasesStep.field (.free _))
    |>.andThen (ErasesStep.field .string)
    |>.andThen (ErasesStep.structs (ReassignableTopicResponse45.erases version {})) : ErasesStep _ _) t
theorem AlterPartitionReassignmentsResponse.within (version : Int16) (t : AlterPartitionReassignmentsResponse) : Within (AlterPartitionReassignmentsResponse.decodeA version t) 12 2 :=
  (((WithinStep.field .int32)
    |>.andThen (WithinStep.field .int16)
    |>.andThen (WithinStep.field .string)
    |>.andThen (WithinStep.structs ((ReassignableTopicResponse45.within version {}).mono (by decide) (Nat.le_refl _))) : WithinStep _ _ _) t).mono (by decide) (by decide)

end Kafka.Msg
