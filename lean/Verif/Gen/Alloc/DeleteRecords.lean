import Verif.Message.AllocLemmas
import Verif.Gen.Model.DeleteRecords
/-!
Generated by tools/gen_messages.py: memory asked for by decoding the DeleteRecords messages.
-/
namespace Kafka.Msg

/-- message/messages.gen.go:6077-6088 `DeleteRecordsPartition21.Decode`, with the memory it asks for -/
def DeleteRecordsPartition21.decodeA (_version : Int16) : DeleteRecordsPartition21 → ADec DeleteRecordsPartition21 :=
    ADec.field ADec.int32 (fun t x => { t with PartitionIndex := x }) ;>>
    ADec.field ADec.int64 (fun t x => { t with Offset := x })
theorem DeleteRecordsPartition21.erases (version : Int16) (t : DeleteRecordsPartition21) : Erases (DeleteRecordsPartition21.decodeA version t) (DeleteRecordsPartition21.decode version t) :=
  ((ErasesStep.field (.free _))
    |>.andThen (ErasesStep.field (.free _)) : ErasesStep _ _) t
theorem DeleteRecordsPartition21.within (version : Int16) (t : DeleteRecordsPartition21) : Within (DeleteRecordsPartition21.decodeA version t) 12 0 :=
  (((WithinStep.field .int32)
    |>.andThen (WithinStep.field .int64) : WithinStep _ _ _) t).mono (by decide) (by decide)

/-- message/messages.gen.go:6035-6055 `DeleteRecordsTopic21.Decode`, with the memory it asks for -/
def DeleteRecordsTopic21.decodeA (version : Int16) : DeleteRecordsTopic21 → ADec DeleteRecordsTopic21 :=
    ADec.field ADec.string (fun t x => { t with Name := x }) ;>>
    ADec.fieldStructs (DeleteRecordsPartition21.decodeA version {}) (·.Partitions) (fun t x => { t with Partitions := x })
theorem DeleteRecordsTopic21.erases (version : Int16) (t : DeleteRecordsTopic21) : Erases (DeleteRecordsTopic21.decodeA version t) (DeleteRecordsTopic21.decode version t) :=
  ((ErasesStep.field .string)
    |>.andThen (ErasesStep.structs (DeleteRecordsPartition21.erases version {})) : ErasesStep _ _) t
theorem DeleteRecordsTopic21.within (version : Int16) (t : DeleteRecordsTopic21) : Within (DeleteRecordsTopic21.decodeA version t) 6 1 :=
  (((WithinStep.field .string)
    |>.andThen (WithinStep.structs ((DeleteRecordsPartition21.within version {}).mono (by decide) (Nat.le_refl _))) : WithinStep _ _ _) t).mono (by decide) (by decide)

/-- message/messages.gen.go:5985-6005 `DeleteRecordsRequest.Decode`, with the memory it asks for -/
def DeleteRecordsRequest.decodeA (version : Int16) : DeleteRecordsRequest → ADec DeleteRecordsRequest :=
    ADec.fieldStructs (DeleteRecordsTopic21.decodeA version {}) (·.Topics) (fun t x => { t with Topics := x }) ;>>
    ADec.field ADec.int32 (fun t x => { t with TimeoutMs := x })
theorem DeleteRecordsRequest.erases (version : Int16) (t : DeleteRecordsRequest) : Erases (DeleteRecordsRequest.decodeA version t) (DeleteRecordsRequest.decode version t) :=
  ((ErasesStep.structs (DeleteRecordsTopic21.erases version {}))
    |>.andThen (ErasesStep.field (.free _)) : ErasesStep _ _) t
theorem DeleteRecordsRequest.within (version : Int16) (t : DeleteRecordsRequest) : Within (DeleteRecordsRequest.decodeA version t) 8 2 :=
  (((WithinStep.structs ((DeleteRecordsTopic21.within version {}).mono (by decide) (Nat.le_refl _)))
    |>.andThen (WithinStep.field .int32) : WithinStep _ _ _) t).mono (by decide) (by decide)

/-- message/messages.gen.go:6214-6229 `DeleteRecordsPartitionResult21.Decode`, with the memory it asks for -/
def DeleteRecordsPartitionResult21.decodeA (_version : Int16) : DeleteRecordsPartitionResult21 → ADec DeleteRecordsPartitionResult21 :=
    ADec.field ADec.int32 (fun t x => { t with PartitionIndex := x }) ;>>
    ADec.field ADec.int64 (fun t x => { t with LowWatermark := x }) ;>>
    ADec.field ADec.int16 (fun t x => { t with ErrorCode := x })
theorem DeleteRecordsPartitionResult21.erases (version : Int16) (t : DeleteRecordsPartitionResult21) : Erases (DeleteRecordsPartitionResult21.decodeA version t) (DeleteRecordsPartitionResult21.decode version t) :=
  ((ErasesStep.field (.free _))
    |>.andThen (ErasesStep.field (.free _))
    |>.andThen (ErasesStep.field (.free _)) : ErasesStep _ _) t
theorem DeleteRecordsPartitionResult21.within (version : Int16) (t : DeleteRecordsPartitionResult21) : Within (DeleteRecordsPartitionResult21.decodeA version t) 14 0 :=
  (((WithinStep.field .int32)
    |>.andThen (WithinStep.field .int64)
    |>.andThen (WithinStep.field .int16) : WithinStep _ _ _) t).mono (by decide) (by decide)

/-- message/messages.gen.go:6169-6189 `DeleteRecordsTopicResult21.Decode`, with the memory it asks for -/
def DeleteRecordsTopicResult21.decodeA (version : Int16) : DeleteRecordsTopicResult21 → ADec DeleteRecordsTopicResult21 :=
    ADec.field ADec.string (fun t x => { t with Name := x }) ;>>
    ADec.fieldStructs (DeleteRecordsPartitionResult21.decodeA version {}) (·.Partitions) (fun t x => { t with Partitions := x })
theorem DeleteRecordsTopicResult21.erases (version : Int16) (t : DeleteRecordsTopicResult21) : Erases (DeleteRecordsTopicResult21.decodeA version t) (DeleteRecordsTopicResult21.decode version t) :=
  ((ErasesStep.field .string)
    |>.andThen (ErasesStep.structs (DeleteRecordsPartitionResult21.erases version {})) : ErasesStep _ _) t
theorem DeleteRecordsTopicResult21.within (version : Int16) (t : DeleteRecordsTopicResult21) : Within (DeleteRecordsTopicResult21.decodeA version t) 6 1 :=
  (((WithinStep.field .string)
    |>.andThen (WithinStep.structs ((DeleteRecordsPartitionResult21.within version {}).mono (by decide) (Nat.le_refl _))) : WithinStep _ _ _) t).mono (by decide) (by decide)

/-- message/messages.gen.go:6119-6139 `DeleteRecordsResponse.Decode`, with the memory it asks for -/
def DeleteRecordsResponse.decodeA (version : Int16) : DeleteRecordsResponse → ADec DeleteRecordsResponse :=
    ADec.field ADec.int32 (fun t x => { t with ThrottleTimeMs := x }) ;>>
    ADec.fieldStructs (DeleteRecordsTopicResult21.decodeA version {}) (·.Topics) (fun t x => { t with Topics := x })
theorem DeleteRecordsResponse.erases (version : Int16) (t : DeleteRecordsResponse) : Erases (DeleteRecordsResponse.decodeA version t) (DeleteRecordsResponse.decode version t) :=
  ((ErasesStep.field (.free _))
    |>.andThen (ErasesStep.structs (DeleteRecordsTopicResult21.erases version {})) : ErasesStep _ _) t
theorem DeleteRecordsResponse.within (version : Int16) (t : DeleteRecordsResponse) : Within (DeleteRecordsResponse.decodeA version t) 8 2 :=
  (((WithinStep.field .int32)
    |>.andThen (WithinStep.structs ((DeleteRecordsTopicResult21.within version {}).mono (by decide) (Nat.le_refl _))) : WithinStep _ _ _) t).mono (by decide) (by decide)

end Kafka.Msg
