import Verif.Message.AllocLemmas
import Verif.Gen.Model.CreatePartitions
/-!
Generated by tools/gen_messages.py: memory asked for by decoding the CreatePartitions messages.
-/
namespace Kafka.Msg

/-- message/messages.gen.go:9804-9811 `CreatePartitionsAssignment37.Decode`, with the memory it asks for -/
def CreatePartitionsAssignment37.decodeA (_version : Int16) : CreatePartitionsAssignment37 → ADec CreatePartitionsAssignment37 :=
    ADec.field ADec.int32Array (fun t x => { t with BrokerIds := x })
theorem CreatePartitionsAssignment37.erases (version : Int16) (t : CreatePartitionsAssignment37) : Erases (CreatePartitionsAssignment37.decodeA version t) (CreatePartitionsAssignment37.decode version t) :=
  (ErasesStep.field (.arrayOf (.free _)) : ErasesStep _ _) t
theorem CreatePartitionsAssignment37.within (version : Int16) (t : CreatePartitionsAssignment37) : Within (CreatePartitionsAssignment37.decodeA version t) 4 1 :=
  ((WithinStep.field .int32Array : WithinStep _ _ _) t).mono (by decide) (by decide)

/-- message/messages.gen.go:9761-9785 `CreatePartitionsTopic37.Decode`, with the memory it asks for -/
def CreatePartitionsTopic37.decodeA (version : Int16) : CreatePartitionsTopic37 → ADec CreatePartitionsTopic37 :=
    ADec.field ADec.string (fun t x => { t with Name := x }) ;>>
    ADec.field ADec.int32 (fun t x => { t with Count := x }) ;>>
    ADec.fieldStructs (CreatePartitionsAssignment37.decodeA version {}) (·.Assignments) (fun t x => { t with Assignments := x })
theorem CreatePartitionsTopic37.erases (version : Int16) (t : CreatePartitionsTopic37) : Erases (CreatePartitionsTopic37.decodeA version t) (CreatePartitionsTopic37.decode version t) :=
  ((ErasesStep.field .string)
    |>.andThen (ErasesStep.field (.free _))
    |>.andThen (ErasesStep.structs (CreatePartitionsAssignment37.erases version {})) : ErasesStep _ _) t
theorem CreatePartitionsTopic37.within (version : Int16) (t : CreatePartitionsTopic37) : Within (CreatePartitionsTopic37.decodeA version t) 10 2 :=
  (((WithinStep.field .string)
    |>.andThen (WithinStep.field .int32)
    |>.andThen (WithinStep.structs ((CreatePartitionsAssignment37.within version {}).mono (by decide) (Nat.le_refl _))) : WithinStep _ _ _) t).mono (by decide) (by decide)

/-- message/messages.gen.go:9704-9728 `CreatePartitionsRequest.Decode`, with the memory it asks for -/
def CreatePartitionsRequest.decodeA (version : Int16) : CreatePartitionsRequest → ADec CreatePartitionsRequest :=
    ADec.fieldStructs (CreatePartitionsTopic37.decodeA version {}) (·.Topics) (fun t x => { t with Topics := x }) ;>>
    ADec.field ADec.int32 (fun t x => { t with TimeoutMs := x }) ;>>
    ADec.field ADec.bool (fun t x => { t with ValidateOnly := x })
theorem CreatePartitionsRequest.erases (version : Int16) (t : CreatePartitionsRequest) : Erases (CreatePartitionsRequest.decodeA version t) (CreatePartitionsRequest.decode version t) :=
  ((ErasesStep.structs (CreatePartitionsTopic37.erases version {}))
    |>.andThen (ErasesStep.field (.free _))
    |>.andThen (ErasesStep.field (.free _)) : ErasesStep _ _) t
theorem CreatePartitionsRequest.within (version : Int16) (t : CreatePartitionsRequest) : Within (CreatePartitionsRequest.decodeA version t) 9 3 :=
  (((WithinStep.structs ((CreatePartitionsTopic37.within version {}).mono (by decide) (Nat.le_refl _)))
    |>.andThen (WithinStep.field .int32)
    |>.andThen (WithinStep.field .bool) : WithinStep _ _ _) t).mono (by decide) (by decide)

/-- message/messages.gen.go:9887-9902 `CreatePartitionsTopicResult37.Decode`, with the memory it asks for -/
def CreatePartitionsTopicResult37.decodeA (_version : Int16) : CreatePartitionsTopicResult37 → ADec CreatePartitionsTopicResult37 :=
    ADec.field ADec.string (fun t x => { t with Name := x }) ;>>
    ADec.field ADec.int16 (fun t x => { t with ErrorCode := x }) ;>>
    ADec.field ADec.string (fun t x => { t with ErrorMessage := x })
theorem CreatePartitionsTopicResult37.erases (version : Int16) (t : CreatePartitionsTopicResult37) : Erases (CreatePartitionsTopicResult37.decodeA version t) (CreatePartitionsTopicResult37.decode version t) :=
  ((ErasesStep.field .string)
    |>.andThen (ErasesStep.field (.free _))
    |>.andThen (ErasesStep.field .string) : ErasesStep _ _) t
theorem CreatePartitionsTopicResult37.within (version : Int16) (t : CreatePartitionsTopicResult37) : Within (CreatePartitionsTopicResult37.decodeA version t) 6 0 :=
  (((WithinStep.field .string)
    |>.andThen (WithinStep.field .int16)
    |>.andThen (WithinStep.field .string) : WithinStep _ _ _) t).mono (by decide) (by decide)

/-- message/messages.gen.go:9842-9862 `CreatePartitionsResponse.Decode`, with the memory it asks for -/
def CreatePartitionsResponse.decodeA (version : Int16) : CreatePartitionsResponse → ADec CreatePartitionsResponse :=
    ADec.field ADec.int32 (fun t x => { t with ThrottleTimeMs := x }) ;>>
    ADec.fieldStructs (CreatePartitionsTopicResult37.decodeA version {}) (·.Results) (fun t x => { t with Results := x })
theorem CreatePartitionsResponse.erases (version : Int16) (t : CreatePartitionsResponse) : Erases (CreatePartitionsResponse.decodeA version t) (CreatePartitionsResponse.decode version t) :=
  ((ErasesStep.field (.free _))
    |>.andThen (ErasesStep.structs (CreatePartitionsTopicResult37.erases version {})) : ErasesStep _ _) t
theorem CreatePartitionsResponse.within (version : Int16) (t : CreatePartitionsResponse) : Within (CreatePartitionsResponse.decodeA version t) 8 1 :=
  (((WithinStep.field .int32)
    |>.andThen (WithinStep.structs ((CreatePartitionsTopicResult37.within version {}).mono (by decide) (Nat.le_refl _))) : WithinStep _ _ _) t).mono (by decide) (by decide)

end Kafka.Msg
