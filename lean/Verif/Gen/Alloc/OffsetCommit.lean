import Verif.Message.AllocLemmas
import Verif.Gen.Model.OffsetCommit
/-!
Generated by tools/gen_messages.py: memory asked for by decoding the OffsetCommit messages.
-/
namespace Kafka.Msg

/-- message/messages.gen.go:3470-3491 `OffsetCommitRequestPartition8.Decode`, with the memory it asks for -/
def OffsetCommitRequestPartition8.decodeA (version : Int16) : OffsetCommitRequestPartition8 → ADec OffsetCommitRequestPartition8 :=
    ADec.field ADec.int32 (fun t x => { t with PartitionIndex := x }) ;>>
    ADec.field ADec.int64 (fun t x => { t with CommittedOffset := x }) ;>>
    ADec.onlyIf (version ≥ 6) (ADec.field ADec.int32 (fun t x => { t with CommittedLeaderEpoch := x })) ;>>
    ADec.field ADec.string (fun t x => { t with CommittedMetadata := x })
theorem OffsetCommitRequestPartition8.erases (version : Int16) (t : OffsetCommitRequestPartition8) : Erases (OffsetCommitRequestPartition8.decodeA version t) (OffsetCommitRequestPartition8.decode version t) :=
  ((ErasesStep.field (.free _))
    |>.andThen (ErasesStep.field (.free _))
    |>.andThen (ErasesStep.onlyIf (ErasesStep.field (.free _)))
    |>.andThen (ErasesStep.field .string) : ErasesStep _ _) t
theorem OffsetCommitRequestPartition8.within (version : Int16) (t : OffsetCommitRequestPartition8) : Within (OffsetCommitRequestPartition8.decodeA version t) 14 0 :=
  (((WithinStep.field .int32)
    |>.andThen (WithinStep.field .int64)
    |>.andThen (WithinStep.onlyIf (fun _ => WithinStep.field .int32))
    |>.andThen (WithinStep.field .string) : WithinStep _ _ _) t).mono (by decide) (by decide)

/-- message/messages.gen.go:3418-3438 `OffsetCommitRequestTopic8.Decode`, with the memory it asks for -/
def OffsetCommitRequestTopic8.decodeA (version : Int16) : OffsetCommitRequestTopic8 → ADec OffsetCommitRequestTopic8 :=
    ADec.field ADec.string (fun t x => { t with Name := x }) ;>>
    ADec.fieldStructs (OffsetCommitRequestPartition8.decodeA version {}) (·.Partitions) (fun t x => { t with Partitions := x })
theorem OffsetCommitRequestTopic8.erases (version : Int16) (t : OffsetCommitRequestTopic8) : Erases (OffsetCommitRequestTopic8.decodeA version t) (OffsetCommitRequestTopic8.decode version t) :=
  ((ErasesStep.field .string)
    |>.andThen (ErasesStep.structs (OffsetCommitRequestPartition8.erases version {})) : ErasesStep _ _) t
theorem OffsetCommitRequestTopic8.within (version : Int16) (t : OffsetCommitRequestTopic8) : Within (OffsetCommitRequestTopic8.decodeA version t) 6 1 :=
  (((WithinStep.field .string)
    |>.andThen (WithinStep.structs ((OffsetCommitRequestPartition8.within version {}).mono (by decide) (Nat.le_refl _))) : WithinStep _ _ _) t).mono (by decide) (by decide)

/-- message/messages.gen.go:3344-3388 `OffsetCommitRequest.Decode`, with the memory it asks for -/
def OffsetCommitRequest.decodeA (version : Int16) : OffsetCommitRequest → ADec OffsetCommitRequest :=
    ADec.field ADec.string (fun t x => { t with GroupId := x }) ;>>
    ADec.onlyIf (version ≥ 1) (ADec.field ADec.int32 (fun t x => { t with GenerationId := x })) ;>>
    ADec.onlyIf (version ≥ 1) (ADec.field ADec.string (fun t x => { t with MemberId := x })) ;>>
    ADec.onlyIf (version ≥ 7) (ADec.field ADec.string (fun t x => { t with GroupInstanceId := x })) ;>>
    ADec.onlyIf (version ≥ 2 ∧ version ≤ 4) (ADec.field ADec.int64 (fun t x => { t with RetentionTimeMs := x })) ;>>
    ADec.fieldStructs (OffsetCommitRequestTopic8.decodeA version {}) (·.Topics) (fun t x => { t with Topics := x })
theorem OffsetCommitRequest.erases (version : Int16) (t : OffsetCommitRequest) : Erases (OffsetCommitRequest.decodeA version t) (OffsetCommitRequest.decode version t) :=
  ((ErasesStep.field .string)
    |>.andThen (ErasesStep.onlyIf (ErasesStep.field (.free _)))
    |>.andThen (ErasesStep.onlyIf (ErasesStep.field .string))
    |>.andThen (ErasesStep.onlyIf (ErasesStep.field .string))
    |>.andThen (ErasesStep.onlyIf (ErasesStep.field (.free _)))
    |>.andThen (ErasesStep.structs (OffsetCommitRequestTopic8.erases version {})) : ErasesStep _ _) t
theorem OffsetCommitRequest.within (version : Int16) (t : OffsetCommitRequest) : Within (OffsetCommitRequest.decodeA version t) 6 2 :=
  (((WithinStep.field .string)
    |>.andThen (WithinStep.onlyIf (fun _ => WithinStep.field .int32))
    |>.andThen (WithinStep.onlyIf (fun _ => WithinStep.field .string))
    |>.andThen (WithinStep.onlyIf (fun _ => WithinStep.field .string))
    |>.andThen (WithinStep.onlyIf (fun _ => WithinStep.field .int64))
    |>.andThen (WithinStep.structs ((OffsetCommitRequestTopic8.within version {}).mono (by decide) (Nat.le_refl _))) : WithinStep _ _ _) t).mono (by decide) (by decide)

/-- message/messages.gen.go:3620-3631 `OffsetCommitResponsePartition8.Decode`, with the memory it asks for -/
def OffsetCommitResponsePartition8.decodeA (_version : Int16) : OffsetCommitResponsePartition8 → ADec OffsetCommitResponsePartition8 :=
    ADec.field ADec.int32 (fun t x => { t with PartitionIndex := x }) ;>>
    ADec.field ADec.int16 (fun t x => { t with ErrorCode := x })
theorem OffsetCommitResponsePartition8.erases (version : Int16) (t : OffsetCommitResponsePartition8) : Erases (OffsetCommitResponsePartition8.decodeA version t) (OffsetCommitResponsePartition8.decode version t) :=
  ((ErasesStep.field (.free _))
    |>.andThen (ErasesStep.field (.free _)) : ErasesStep _ _) t
theorem OffsetCommitResponsePartition8.within (version : Int16) (t : OffsetCommitResponsePartition8) : Within (OffsetCommitResponsePartition8.decodeA version t) 6 0 :=
  (((WithinStep.field .int32)
    |>.andThen (WithinStep.field .int16) : WithinStep _ _ _) t).mono (by decide) (by decide)

/-- message/messages.gen.go:3578-3598 `OffsetCommitResponseTopic8.Decode`, with the memory it asks for -/
def OffsetCommitResponseTopic8.decodeA (version : Int16) : OffsetCommitResponseTopic8 → ADec OffsetCommitResponseTopic8 :=
    ADec.field ADec.string (fun t x => { t with Name := x }) ;>>
    ADec.fieldStructs (OffsetCommitResponsePartition8.decodeA version {}) (·.Partitions) (fun t x => { t with Partitions := x })
theorem OffsetCommitResponseTopic8.erases (version : Int16) (t : OffsetCommitResponseTopic8) : Erases (OffsetCommitResponseTopic8.decodeA version t) (OffsetCommitResponseTopic8.decode version t) :=
  ((ErasesStep.field .string)
    |>.andThen (ErasesStep.structs (OffsetCommitResponsePartition8.erases version {})) : ErasesStep _ _) t
theorem OffsetCommitResponseTopic8.within (version : Int16) (t : OffsetCommitResponseTopic8) : Within (OffsetCommitResponseTopic8.decodeA version t) 6 1 :=
  (((WithinStep.field .string)
    |>.andThen (WithinStep.structs ((OffsetCommitResponsePartition8.within version {}).mono (by decide) (Nat.le_refl _))) : WithinStep _ _ _) t).mono (by decide) (by decide)

/-- message/messages.gen.go:3526-3548 `OffsetCommitResponse.Decode`, with the memory it asks for -/
def OffsetCommitResponse.decodeA (version : Int16) : OffsetCommitResponse → ADec OffsetCommitResponse :=
    ADec.onlyIf (version ≥ 3) (ADec.field ADec.int32 (fun t x => { t with ThrottleTimeMs := x })) ;>>
    ADec.fieldStructs (OffsetCommitResponseTopic8.decodeA version {}) (·.Topics) (fun t x => { t with Topics := x })
theorem OffsetCommitResponse.erases (version : Int16) (t : OffsetCommitResponse) : Erases (OffsetCommitResponse.decodeA version t) (OffsetCommitResponse.decode version t) :=
  ((ErasesStep.onlyIf (ErasesStep.field (.free _)))
    |>.andThen (ErasesStep.structs (OffsetCommitResponseTopic8.erases version {})) : ErasesStep _ _) t
theorem OffsetCommitResponse.within (version : Int16) (t : OffsetCommitResponse) : Within (OffsetCommitResponse.decodeA version t) 4 2 :=
  (((WithinStep.onlyIf (fun _ => WithinStep.field .int32))
    |>.andThen (WithinStep.structs ((OffsetCommitResponseTopic8.within version {}).mono (by decide) (Nat.le_refl _))) : WithinStep _ _ _) t).mono (by decide) (by decide)

end Kafka.Msg
