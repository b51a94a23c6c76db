import Verif.Message.AllocLemmas
import Verif.Gen.Model.OffsetForLeaderEpoch
/-!
Generated by tools/gen_messages.py: memory asked for by decoding the OffsetForLeaderEpoch messages.
-/
namespace Kafka.Msg

/-- message/messages.gen.go:6447-6464 `OffsetForLeaderPartition23.Decode`, with the memory it asks for -/
def OffsetForLeaderPartition23.decodeA (version : Int16) : OffsetForLeaderPartition23 → ADec OffsetForLeaderPartition23 :=
    ADec.field ADec.int32 (fun t x => { t with PartitionIndex := x }) ;>>
    ADec.onlyIf (version ≥ 2) (ADec.field ADec.int32 (fun t x => { t with CurrentLeaderEpoch := x })) ;>>
    ADec.field ADec.int32 (fun t x => { t with LeaderEpoch := x })
theorem OffsetForLeaderPartition23.erases (version : Int16) (t : OffsetForLeaderPartition23) : Erases (OffsetForLeaderPartition23.decodeA version t) (OffsetForLeaderPartition23.decode version t) :=
  ((ErasesStep.field (.free _))
    |>.andThen (ErasesStep.onlyIf (ErasesStep.field (.free _)))
    |>.andThen (ErasesStep.field (.free _)) : ErasesStep _ _) t
theorem OffsetForLeaderPartition23.within (version : Int16) (t : OffsetForLeaderPartition23) : Within (OffsetForLeaderPartition23.decodeA version t) 8 0 :=
  (((WithinStep.field .int32)
    |>.andThen (WithinStep.onlyIf (fun _ => WithinStep.field .int32))
    |>.andThen (WithinStep.field .int32) : WithinStep _ _ _) t).mono (by decide) (by decide)

/-- message/messages.gen.go:6398-6418 `OffsetForLeaderTopic23.Decode`, with the memory it asks for -/
def OffsetForLeaderTopic23.decodeA (version : Int16) : OffsetForLeaderTopic23 → ADec OffsetForLeaderTopic23 :=
    ADec.field ADec.string (fun t x => { t with Name := x }) ;>>
    ADec.fieldStructs (OffsetForLeaderPartition23.decodeA version {}) (·.Partitions) (fun t x => { t with Partitions := x })
theorem OffsetForLeaderTopic23.erases (version : Int16) (t : OffsetForLeaderTopic23) : Erases (OffsetForLeaderTopic23.decodeA version t) (OffsetForLeaderTopic23.decode version t) :=
  ((ErasesStep.field .string)
    |>.andThen (ErasesStep.structs (OffsetForLeaderPartition23.erases version {})) : ErasesStep _ _) t
theorem OffsetForLeaderTopic23.within (version : Int16) (t : OffsetForLeaderTopic23) : Within (OffsetForLeaderTopic23.decodeA version t) 6 1 :=
  (((WithinStep.field .string)
    |>.andThen (WithinStep.structs ((OffsetForLeaderPartition23.within version {}).mono (by decide) (Nat.le_refl _))) : WithinStep _ _ _) t).mono (by decide) (by decide)

/-- message/messages.gen.go:6346-6368 `OffsetForLeaderEpochRequest.Decode`, with the memory it asks for -/
def OffsetForLeaderEpochRequest.decodeA (version : Int16) : OffsetForLeaderEpochRequest → ADec OffsetForLeaderEpochRequest :=
    ADec.onlyIf (version ≥ 3) (ADec.field ADec.int32 (fun t x => { t with ReplicaId := x })) ;>>
    ADec.fieldStructs (OffsetForLeaderTopic23.decodeA version {}) (·.Topics) (fun t x => { t with Topics := x })
theorem OffsetForLeaderEpochRequest.erases (version : Int16) (t : OffsetForLeaderEpochRequest) : Erases (OffsetForLeaderEpochRequest.decodeA version t) (OffsetForLeaderEpochRequest.decode version t) :=
  ((ErasesStep.onlyIf (ErasesStep.field (.free _)))
    |>.andThen (ErasesStep.structs (OffsetForLeaderTopic23.erases version {})) : ErasesStep _ _) t
theorem OffsetForLeaderEpochRequest.within (version : Int16) (t : OffsetForLeaderEpochRequest) : Within (OffsetForLeaderEpochRequest.decodeA version t) 4 2 :=
  (((WithinStep.onlyIf (fun _ => WithinStep.field .int32))
    |>.andThen (WithinStep.structs ((OffsetForLeaderTopic23.within version {}).mono (by decide) (Nat.le_refl _))) : WithinStep _ _ _) t).mono (by decide) (by decide)

/-- message/messages.gen.go:6603-6624 `OffsetForLeaderPartitionResult23.Decode`, with the memory it asks for -/
def OffsetForLeaderPartitionResult23.decodeA (version : Int16) : OffsetForLeaderPartitionResult23 → ADec OffsetForLeaderPartitionResult23 :=
    ADec.field ADec.int16 (fun t x => { t with ErrorCode := x }) ;>>
    ADec.field ADec.int32 (fun t x => { t with PartitionIndex := x }) ;>>
    ADec.onlyIf (version ≥ 1) (ADec.field ADec.int32 (fun t x => { t with LeaderEpoch := x })) ;>>
    ADec.field ADec.int64 (fun t x => { t with EndOffset := x })
theorem OffsetForLeaderPartitionResult23.erases (version : Int16) (t : OffsetForLeaderPartitionResult23) : Erases (OffsetForLeaderPartitionResult23.decodeA version t) (OffsetForLeaderPartitionResult23.decode version t) :=
  ((ErasesStep.field (.free _))
    |>.andThen (ErasesStep.field (.free _))
    |>.andThen (ErasesStep.onlyIf (ErasesStep.field (.free _)))
    |>.andThen (ErasesStep.field (.free _)) : ErasesStep _ _) t
theorem OffsetForLeaderPartitionResult23.within (version : Int16) (t : OffsetForLeaderPartitionResult23) : Within (OffsetForLeaderPartitionResult23.decodeA version t) 14 0 :=
  (((WithinStep.field .int16)
    |>.andThen (WithinStep.field .int32)
    |>.andThen (WithinStep.onlyIf (fun _ => WithinStep.field .int32))
    |>.andThen (WithinStep.field .int64) : WithinStep _ _ _) t).mono (by decide) (by decide)

/-- message/messages.gen.go:6551-6571 `OffsetForLeaderTopicResult23.Decode`, with the memory it asks for -/
def OffsetForLeaderTopicResult23.decodeA (version : Int16) : OffsetForLeaderTopicResult23 → ADec OffsetForLeaderTopicResult23 :=
    ADec.field ADec.string (fun t x => { t with Name := x }) ;>>
    ADec.fieldStructs (OffsetForLeaderPartitionResult23.decodeA version {}) (·.Partitions) (fun t x => { t with Partitions := x })
theorem OffsetForLeaderTopicResult23.erases (version : Int16) (t : OffsetForLeaderTopicResult23) : Erases (OffsetForLeaderTopicResult23.decodeA version t) (OffsetForLeaderTopicResult23.decode version t) :=
  ((ErasesStep.field .string)
    |>.andThen (ErasesStep.structs (OffsetForLeaderPartitionResult23.erases version {})) : ErasesStep _ _) t
theorem OffsetForLeaderTopicResult23.within (version : Int16) (t : OffsetForLeaderTopicResult23) : Within (OffsetForLeaderTopicResult23.decodeA version t) 6 1 :=
  (((WithinStep.field .string)
    |>.andThen (WithinStep.structs ((OffsetForLeaderPartitionResult23.within version {}).mono (by decide) (Nat.le_refl _))) : WithinStep _ _ _) t).mono (by decide) (by decide)

/-- message/messages.gen.go:6499-6521 `OffsetForLeaderEpochResponse.Decode`, with the memory it asks for -/
def OffsetForLeaderEpochResponse.decodeA (version : Int16) : OffsetForLeaderEpochResponse → ADec OffsetForLeaderEpochResponse :=
    ADec.onlyIf (version ≥ 2) (ADec.field ADec.int32 (fun t x => { t with ThrottleTimeMs := x })) ;>>
    ADec.fieldStructs (OffsetForLeaderTopicResult23.decodeA version {}) (·.Topics) (fun t x => { t with Topics := x })
theorem OffsetForLeaderEpochResponse.erases (version : Int16) (t : OffsetForLeaderEpochResponse) : Erases (OffsetForLeaderEpochResponse.decodeA version t) (OffsetForLeaderEpochResponse.decode version t) :=
  ((ErasesStep.onlyIf (ErasesStep.field (.free _)))
    |>.andThen (ErasesStep.structs (OffsetForLeaderTopicResult23.erases version {})) : ErasesStep _ _) t
theorem OffsetForLeaderEpochResponse.within (version : Int16) (t : OffsetForLeaderEpochResponse) : Within (OffsetForLeaderEpochResponse.decodeA version t) 4 2 :=
  (((WithinStep.onlyIf (fun _ => WithinStep.field .int32))
    |>.andThen (WithinStep.structs ((OffsetForLeaderTopicResult23.within version {}).mono (by decide) (Nat.le_refl _))) : WithinStep _ _ _) t).mono (by decide) (by decide)

end Kafka.Msg
