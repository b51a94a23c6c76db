import Verif.Message.AllocLemmas
import Verif.Gen.Model.ListOffset
/-!
Generated by tools/gen_messages.py: memory asked for by decoding the ListOffset messages.
-/
namespace Kafka.Msg

/-- message/messages.gen.go:1282-1305 `ListOffsetPartition2.Decode`, with the memory it asks for -/
def ListOffsetPartition2.decodeA (version : Int16) : ListOffsetPartition2 → ADec ListOffsetPartition2 :=
    ADec.field ADec.int32 (fun t x => { t with PartitionIndex := x }) ;>>
    ADec.onlyIf (version ≥ 4) (ADec.field ADec.int32 (fun t x => { t with CurrentLeaderEpoch := x })) ;>>
    ADec.field ADec.int64 (fun t x => { t with Timestamp := x }) ;>>
    ADec.onlyIf (version ≥ 0 ∧ version ≤ 0) (ADec.field ADec.int32 (fun t x => { t with MaxNumOffsets := x }))
theorem ListOffsetPartition2.erases (version : Int16) (t : ListOffsetPartition2) : Erases (ListOffsetPartition2.decodeA version t) (ListOffsetPartition2.decode version t) :=
  ((ErasesStep.field (.free _))
    |>.andThen (ErasesStep.onlyIf (ErasesStep.field (.free _)))
    |>.andThen (ErasesStep.field (.free _))
    |>.andThen (ErasesStep.onlyIf (ErasesStep.field (.free _))) : ErasesStep _ _) t
theorem ListOffsetPartition2.within (version : Int16) (t : ListOffsetPartition2) : Within (ListOffsetPartition2.decodeA version t) 12 0 :=
  (((WithinStep.field .int32)
    |>.andThen (WithinStep.onlyIf (fun _ => WithinStep.field .int32))
    |>.andThen (WithinStep.field .int64)
    |>.andThen (WithinStep.onlyIf (fun _ => WithinStep.field .int32)) : WithinStep _ _ _) t).mono (by decide) (by decide)

/-- message/messages.gen.go:1226-1246 `ListOffsetTopic2.Decode`, with the memory it asks for -/
def ListOffsetTopic2.decodeA (version : Int16) : ListOffsetTopic2 → ADec ListOffsetTopic2 :=
    ADec.field ADec.string (fun t x => { t with Name := x }) ;>>
    ADec.fieldStructs (ListOffsetPartition2.decodeA version {}) (·.Partitions) (fun t x => { t with Partitions := x })
theorem ListOffsetTopic2.erases (version : Int16) (t : ListOffsetTopic2) : Erases (ListOffsetTopic2.decodeA version t) (ListOffsetTopic2.decode version t) :=
  ((ErasesStep.field .string)
    |>.andThen (ErasesStep.structs (ListOffsetPartition2.erases version {})) : ErasesStep _ _) t
theorem ListOffsetTopic2.within (version : Int16) (t : ListOffsetTopic2) : Within (ListOffsetTopic2.decodeA version t) 6 1 :=
  (((WithinStep.field .string)
    |>.andThen (WithinStep.structs ((ListOffsetPartition2.within version {}).mono (by decide) (Nat.le_refl _))) : WithinStep _ _ _) t).mono (by decide) (by decide)

/-- message/messages.gen.go:1170-1196 `ListOffsetRequest.Decode`, with the memory it asks for -/
def ListOffsetRequest.decodeA (version : Int16) : ListOffsetRequest → ADec ListOffsetRequest :=
    ADec.field ADec.int32 (fun t x => { t with ReplicaId := x }) ;>>
    ADec.onlyIf (version ≥ 2) (ADec.field ADec.int8 (fun t x => { t with IsolationLevel := x })) ;>>
    ADec.fieldStructs (ListOffsetTopic2.decodeA version {}) (·.Topics) (fun t x => { t with Topics := x })
theorem ListOffsetRequest.erases (version : Int16) (t : ListOffsetRequest) : Erases (ListOffsetRequest.decodeA version t) (ListOffsetRequest.decode version t) :=
  ((ErasesStep.field (.free _))
    |>.andThen (ErasesStep.onlyIf (ErasesStep.field (.free _)))
    |>.andThen (ErasesStep.structs (ListOffsetTopic2.erases version {})) : ErasesStep _ _) t
theorem ListOffsetRequest.within (version : Int16) (t : ListOffsetRequest) : Within (ListOffsetRequest.decodeA version t) 8 2 :=
  (((WithinStep.field .int32)
    |>.andThen (WithinStep.onlyIf (fun _ => WithinStep.field .int8))
    |>.andThen (WithinStep.structs ((ListOffsetTopic2.within version {}).mono (by decide) (Nat.le_refl _))) : WithinStep _ _ _) t).mono (by decide) (by decide)

/-- message/messages.gen.go:1462-1497 `ListOffsetPartitionResponse2.Decode`, with the memory it asks for -/
def ListOffsetPartitionResponse2.decodeA (version : Int16) : ListOffsetPartitionResponse2 → ADec ListOffsetPartitionResponse2 :=
    ADec.field ADec.int32 (fun t x => { t with PartitionIndex := x }) ;>>
    ADec.field ADec.int16 (fun t x => { t with ErrorCode := x }) ;>>
    ADec.onlyIf (version ≥ 0 ∧ version ≤ 0) (ADec.field ADec.int64Array (fun t x => { t with OldStyleOffsets := x })) ;>>
    ADec.onlyIf (version ≥ 1) (ADec.field ADec.int64 (fun t x => { t with Timestamp := x })) ;>>
    ADec.onlyIf (version ≥ 1) (ADec.field ADec.int64 (fun t x => { t with Offset := x })) ;>>
    ADec.onlyIf (version ≥ 4) (ADec.field ADec.int32 (fun t x => { t with LeaderEpoch := x }))
theorem ListOffsetPartitionResponse2.erases (version : Int16) (t : ListOffsetPartitionResponse2) : Erases (ListOffsetPartitionResponse2.decodeA version t) (ListOffsetPartitionResponse2.decode version t) :=
  ((ErasesStep.field (.free _))
    |>.andThen (ErasesStep.field (.free _))
    |>.andThen (ErasesStep.onlyIf (ErasesStep.field (.arrayOf (.free _))))
    |>.andThen (ErasesStep.onlyIf (ErasesStep.field (.free _)))
    |>.andThen (ErasesStep.onlyIf (ErasesStep.field (.free _)))
    |>.andThen (ErasesStep.onlyIf (ErasesStep.field (.free _))) : ErasesStep _ _) t
theorem ListOffsetPartitionResponse2.within (version : Int16) (t : ListOffsetPartitionResponse2) : Within (ListOffsetPartitionResponse2.decodeA version t) 6 1 :=
  (((WithinStep.field .int32)
    |>.andThen (WithinStep.field .int16)
    |>.andThen (WithinStep.onlyIf (fun _ => WithinStep.field .int64Array))
    |>.andThen (WithinStep.onlyIf (fun _ => WithinStep.field .int64))
    |>.andThen (WithinStep.onlyIf (fun _ => WithinStep.field .int64))
    |>.andThen (WithinStep.onlyIf (fun _ => WithinStep.field .int32)) : WithinStep _ _ _) t).mono (by decide) (by decide)

/-- message/messages.gen.go:1392-1412 `ListOffsetTopicResponse2.Decode`, with the memory it asks for -/
def ListOffsetTopicResponse2.decodeA (version : Int16) : ListOffsetTopicResponse2 → ADec ListOffsetTopicResponse2 :=
    ADec.field ADec.string (fun t x => { t with Name := x }) ;>>
    ADec.fieldStructs (ListOffsetPartitionResponse2.decodeA version {}) (·.Partitions) (fun t x => { t with Partitions := x })
theorem ListOffsetTopicResponse2.erases (version : Int16) (t : ListOffsetTopicResponse2) : Erases (ListOffsetTopicResponse2.decodeA version t) (ListOffsetTopicResponse2.decode version t) :=
  ((ErasesStep.field .string)
    |>.andThen (ErasesStep.structs (ListOffsetPartitionResponse2.erases version {})) : ErasesStep _ _) t
theorem ListOffsetTopicResponse2.within (version : Int16) (t : ListOffsetTopicResponse2) : Within (ListOffsetTopicResponse2.decodeA version t) 6 2 :=
  (((WithinStep.field .string)
    |>.andThen (WithinStep.structs ((ListOffsetPartitionResponse2.within version {}).mono (by decide) (Nat.le_refl _))) : WithinStep _ _ _) t).mono (by decide) (by decide)

/-- message/messages.gen.go:1340-1362 `ListOffsetResponse.Decode`, with the memory it asks for -/
def ListOffsetResponse.decodeA (version : Int16) : ListOffsetResponse → ADec ListOffsetResponse :=
    ADec.onlyIf (version ≥ 2) (ADec.field ADec.int32 (fun t x => { t with ThrottleTimeMs := x })) ;>>
    ADec.fieldStructs (ListOffsetTopicResponse2.decodeA version {}) (·.Topics) (fun t x => { t with Topics := x })
theorem ListOffsetResponse.erases (version : Int16) (t : ListOffsetResponse) : Erases (ListOffsetResponse.decodeA version t) (ListOffsetResponse.decode version t) :=
  ((ErasesStep.onlyIf (ErasesStep.field (.free _)))
    |>.andThen (ErasesStep.structs (ListOffsetTopicResponse2.erases version {})) : ErasesStep _ _) t
theorem ListOffsetResponse.within (version : Int16) (t : ListOffsetResponse) : Within (ListOffsetResponse.decodeA version t) 4 3 :=
  (((WithinStep.onlyIf (fun _ => WithinStep.field .int32))
    |>.andThen (WithinStep.structs ((ListOffsetTopicResponse2.within version {}).mono (by decide) (Nat.le_refl _))) : WithinStep _ _ _) t).mono (by decide) (by decide)

end Kafka.Msg
