import Verif.Message.AllocLemmas
import Verif.Gen.Model.TxnOffsetCommit
/-!
Generated by tools/gen_messages.py: memory asked for by decoding the TxnOffsetCommit messages.
-/
namespace Kafka.Msg

/-- message/messages.gen.go:7499-7520 `TxnOffsetCommitRequestPartition28.Decode`, with the memory it asks for -/
def TxnOffsetCommitRequestPartition28.decodeA (version : Int16) : TxnOffsetCommitRequestPartition28 → ADec TxnOffsetCommitRequestPartition28 :=
    ADec.field ADec.int32 (fun t x => { t with PartitionIndex := x }) ;>>
    ADec.field ADec.int64 (fun t x => { t with CommittedOffset := x }) ;>>
    ADec.onlyIf (version ≥ 2) (ADec.field ADec.int32 (fun t x => { t with CommittedLeaderEpoch := x })) ;>>
    ADec.field ADec.string (fun t x => { t with CommittedMetadata := x })
theorem TxnOffsetCommitRequestPartition28.erases (version : Int16) (t : TxnOffsetCommitRequestPartition28) : Erases (TxnOffsetCommitRequestPartition28.decodeA version t) (TxnOffsetCommitRequestPartition28.decode version t) :=
  ((ErasesStep.field (.free _))
    |>.andThen (ErasesStep.field (.free _))
    |>.andThen (ErasesStep.onlyIf (ErasesStep.field (.free _)))
    |>.andThen (ErasesStep.field .string) : ErasesStep _ _) t
theorem TxnOffsetCommitRequestPartition28.within (version : Int16) (t : TxnOffsetCommitRequestPartition28) : Within (TxnOffsetCommitRequestPartition28.decodeA version t) 14 0 :=
  (((WithinStep.field .int32)
    |>.andThen (WithinStep.field .int64)
    |>.andThen (WithinStep.onlyIf (fun _ => WithinStep.field .int32))
    |>.andThen (WithinStep.field .string) : WithinStep _ _ _) t).mono (by decide) (by decide)

/-- message/messages.gen.go:7447-7467 `TxnOffsetCommitRequestTopic28.Decode`, with the memory it asks for -/
def TxnOffsetCommitRequestTopic28.decodeA (version : Int16) : TxnOffsetCommitRequestTopic28 → ADec TxnOffsetCommitRequestTopic28 :=
    ADec.field ADec.string (fun t x => { t with Name := x }) ;>>
    ADec.fieldStructs (TxnOffsetCommitRequestPartition28.decodeA version {}) (·.Partitions) (fun t x => { t with Partitions := x })
theorem TxnOffsetCommitRequestTopic28.erases (version : Int16) (t : TxnOffsetCommitRequestTopic28) : Erases (TxnOffsetCommitRequestTopic28.decodeA version t) (TxnOffsetCommitRequestTopic28.decode version t) :=
  ((ErasesStep.field .string)
    |>.andThen (ErasesStep.structs (TxnOffsetCommitRequestPartition28.erases version {})) : ErasesStep _ _) t
theorem TxnOffsetCommitRequestTopic28.within (version : Int16) (t : TxnOffsetCommitRequestTopic28) : Within (TxnOffsetCommitRequestTopic28.decodeA version t) 6 1 :=
  (((WithinStep.field .string)
    |>.andThen (WithinStep.structs ((TxnOffsetCommitRequestPartition28.within version {}).mono (by decide) (Nat.le_refl _))) : WithinStep _ _ _) t).mono (by decide) (by decide)

/-- message/messages.gen.go:7385-7417 `TxnOffsetCommitRequest.Decode`, with the memory it asks for -/
def TxnOffsetCommitRequest.decodeA (version : Int16) : TxnOffsetCommitRequest → ADec TxnOffsetCommitRequest :=
    ADec.field ADec.string (fun t x => { t with TransactionalId := x }) ;>>
    ADec.field ADec.string (fun t x => { t with GroupId := x }) ;>>
    ADec.field ADec.int64 (fun t x => { t with ProducerId := x }) ;>>
    ADec.field ADec.int16 (fun t x => { t with ProducerEpoch := x }) ;>>
    ADec.fieldStructs (TxnOffsetCommitRequestTopic28.decodeA version {}) (·.Topics) (fun t x => { t with Topics := x })
theorem TxnOffsetCommitRequest.erases (version : Int16) (t : TxnOffsetCommitRequest) : Erases (TxnOffsetCommitRequest.decodeA version t) (TxnOffsetCommitRequest.decode version t) :=
  ((ErasesStep.field .string)
    |>.andThen (ErasesStep.field .string)
    |>.andThen (ErasesStep.field (.free _))
    |>.andThen (ErasesStep.field (.free _))
    |>.andThen (ErasesStep.structs (TxnOffsetCommitRequestTopic28.erases version {})) : ErasesStep _ _) t
theorem TxnOffsetCommitRequest.within (version : Int16) (t : TxnOffsetCommitRequest) : Within (TxnOffsetCommitRequest.decodeA version t) 18 2 :=
  (((WithinStep.field .string)
    |>.andThen (WithinStep.field .string)
    |>.andThen (WithinStep.field .int64)
    |>.andThen (WithinStep.field .int16)
    |>.andThen (WithinStep.structs ((TxnOffsetCommitRequestTopic28.within version {}).mono (by decide) (Nat.le_refl _))) : WithinStep _ _ _) t).mono (by decide) (by decide)

/-- message/messages.gen.go:7643-7654 `TxnOffsetCommitResponsePartition28.Decode`, with the memory it asks for -/
def TxnOffsetCommitResponsePartition28.decodeA (_version : Int16) : TxnOffsetCommitResponsePartition28 → ADec TxnOffsetCommitResponsePartition28 :=
    ADec.field ADec.int32 (fun t x => { t with PartitionIndex := x }) ;>>
    ADec.field ADec.int16 (fun t x => { t with ErrorCode := x })
theorem TxnOffsetCommitResponsePartition28.erases (version : Int16) (t : TxnOffsetCommitResponsePartition28) : Erases (TxnOffsetCommitResponsePartition28.decodeA version t) (TxnOffsetCommitResponsePartition28.decode version t) :=
  ((ErasesStep.field (.free _))
    |>.andThen (ErasesStep.field (.free _)) : ErasesStep _ _) t
theorem TxnOffsetCommitResponsePartition28.within (version : Int16) (t : TxnOffsetCommitResponsePartition28) : Within (TxnOffsetCommitResponsePartition28.decodeA version t) 6 0 :=
  (((WithinStep.field .int32)
    |>.andThen (WithinStep.field .int16) : WithinStep _ _ _) t).mono (by decide) (by decide)

/-- message/messages.gen.go:7601-7621 `TxnOffsetCommitResponseTopic28.Decode`, with the memory it asks for -/
def TxnOffsetCommitResponseTopic28.decodeA (version : Int16) : TxnOffsetCommitResponseTopic28 → ADec TxnOffsetCommitResponseTopic28 :=
    ADec.field ADec.string (fun t x => { t with Name := x }) ;>>
    ADec.fieldStructs (TxnOffsetCommitResponsePartition28.decodeA version {}) (·.Partitions) (fun t x => { t with Partitions := x })
theorem TxnOffsetCommitResponseTopic28.erases (version : Int16) (t : TxnOffsetCommitResponseTopic28) : Erases (TxnOffsetCommitResponseTopic28.decodeA version t) (TxnOffsetCommitResponseTopic28.decode version t) :=
  ((ErasesStep.field .string)
    |>.andThen (ErasesStep.structs (TxnOffsetCommitResponsePartition28.erases version {})) : ErasesStep _ _) t
theorem TxnOffsetCommitResponseTopic28.within (version : Int16) (t : TxnOffsetCommitResponseTopic28) : Within (TxnOffsetCommitResponseTopic28.decodeA version t) 6 1 :=
  (((WithinStep.field .string)
    |>.andThen (WithinStep.structs ((TxnOffsetCommitResponsePartition28.within version {}).mono (by decide) (Nat.le_refl _))) : WithinStep _ _ _) t).mono (by decide) (by decide)

/-- message/messages.gen.go:7551-7571 `TxnOffsetCommitResponse.Decode`, with the memory it asks for -/
def TxnOffsetCommitResponse.decodeA (version : Int16) : TxnOffsetCommitResponse → ADec TxnOffsetCommitResponse :=
    ADec.field ADec.int32 (fun t x => { t with ThrottleTimeMs := x }) ;>>
    ADec.fieldStructs (TxnOffsetCommitResponseTopic28.decodeA version {}) (·.Topics) (fun t x => { t with Topics := x })
theorem TxnOffsetCommitResponse.erases (version : Int16) (t : TxnOffsetCommitResponse) : Erases (TxnOffsetCommitResponse.decodeA version t) (TxnOffsetCommitResponse.decode version t) :=
  ((ErasesStep.field (.free _))
    |>.andThen (ErasesStep.structs (TxnOffsetCommitResponseTopic28.erases version {})) : ErasesStep _ _) t
theorem TxnOffsetCommitResponse.within (version : Int16) (t : TxnOffsetCommitResponse) : Within (TxnOffsetCommitResponse.decodeA version t) 8 2 :=
  (((WithinStep.field .int32)
    |>.andThen (WithinStep.structs ((TxnOffsetCommitResponseTopic28.within version {}).mono (by decide) (Nat.le_refl _))) : WithinStep _ _ _) t).mono (by decide) (by decide)

end Kafka.Msg
