import Verif.Message.AllocLemmas
import Verif.Gen.Model.Fetch
/-!
Generated by tools/gen_messages.py: memory asked for by decoding the Fetch messages.
-/
namespace Kafka.Msg

/-- message/messages.gen.go:766-793 `FetchPartition1.Decode`, with the memory it asks for -/
def FetchPartition1.decodeA (version : Int16) : FetchPartition1 → ADec FetchPartition1 :=
    ADec.field ADec.int32 (fun t x => { t with PartitionIndex := x }) ;>>
    ADec.onlyIf (version ≥ 9) (ADec.field ADec.int32 (fun t x => { t with CurrentLeaderEpoch := x })) ;>>
    ADec.field ADec.int64 (fun t x => { t with FetchOffset := x }) ;>>
    ADec.onlyIf (version ≥ 5) (ADec.field ADec.int64 (fun t x => { t with LogStartOffset := x })) ;>>
    ADec.field ADec.int32 (fun t x => { t with MaxBytes := x })
theorem FetchPartition1.erases (version : Int16) (t : FetchPartition1) : Erases (FetchPartition1.decodeA version t) (FetchPartition1.decode version t) :=
  ((ErasesStep.field (.free _))
    |>.andThen (ErasesStep.onlyIf (ErasesStep.field (.free _)))
    |>.andThen (ErasesStep.field (.free _))
    |>.andThen (ErasesStep.onlyIf (ErasesStep.field (.free _)))
    |>.andThen (ErasesStep.field (.free _)) : ErasesStep _ _) t
theorem FetchPartition1.within (version : Int16) (t : FetchPartition1) : Within (FetchPartition1.decodeA version t) 16 0 :=
  (((WithinStep.field .int32)
    |>.andThen (WithinStep.onlyIf (fun _ => WithinStep.field .int32))
    |>.andThen (WithinStep.field .int64)
    |>.andThen (WithinStep.onlyIf (fun _ => WithinStep.field .int64))
    |>.andThen (WithinStep.field .int32) : WithinStep _ _ _) t).mono (by decide) (by decide)

/-- message/messages.gen.go:707-727 `FetchableTopic1.Decode`, with the memory it asks for -/
def FetchableTopic1.decodeA (version : Int16) : FetchableTopic1 → ADec FetchableTopic1 :=
    ADec.field ADec.string (fun t x => { t with Name := x }) ;>>
    ADec.fieldStructs (FetchPartition1.decodeA version {}) (·.FetchPartitions) (fun t x => { t with FetchPartitions := x })
theorem FetchableTopic1.erases (version : Int16) (t : FetchableTopic1) : Erases (FetchableTopic1.decodeA version t) (FetchableTopic1.decode version t) :=
  ((ErasesStep.field .string)
    |>.andThen (ErasesStep.structs (FetchPartition1.erases version {})) : ErasesStep _ _) t
theorem FetchableTopic1.within (version : Int16) (t : FetchableTopic1) : Within (FetchableTopic1.decodeA version t) 6 1 :=
  (((WithinStep.field .string)
    |>.andThen (WithinStep.structs ((FetchPartition1.within version {}).mono (by decide) (Nat.le_refl _))) : WithinStep _ _ _) t).mono (by decide) (by decide)

/-- message/messages.gen.go:823-838 `ForgottenTopic1.Decode`, with the memory it asks for -/
def ForgottenTopic1.decodeA (version : Int16) : ForgottenTopic1 → ADec ForgottenTopic1 :=
    ADec.onlyIf (version ≥ 7) (ADec.field ADec.string (fun t x => { t with Name := x })) ;>>
    ADec.onlyIf (version ≥ 7) (ADec.field ADec.int32Array (fun t x => { t with ForgottenPartitionIndexes := x }))
theorem ForgottenTopic1.erases (version : Int16) (t : ForgottenTopic1) : Erases (ForgottenTopic1.decodeA version t) (ForgottenTopic1.decode version t) :=
  ((ErasesStep.onlyIf (ErasesStep.field .string))
    |>.andThen (ErasesStep.onlyIf (ErasesStep.field (.arrayOf (.free _)))) : ErasesStep _ _) t
theorem ForgottenTopic1.within (version : Int16) (t : ForgottenTopic1) (h : version ≥ 7) : Within (ForgottenTopic1.decodeA version t) 2 1 :=
  (((WithinStep.present h (WithinStep.field .string))
    |>.andThen (WithinStep.onlyIf (fun _ => WithinStep.field .int32Array)) : WithinStep _ _ _) t).mono (by decide) (by decide)

/-- message/messages.gen.go:604-677 `FetchRequest.Decode`, with the memory it asks for -/
def FetchRequest.decodeA (version : Int16) : FetchRequest → ADec FetchRequest :=
    ADec.field ADec.int32 (fun t x => { t with ReplicaId := x }) ;>>
    ADec.field ADec.int32 (fun t x => { t with MaxWait := x }) ;>>
    ADec.field ADec.int32 (fun t x => { t with MinBytes := x }) ;>>
    ADec.onlyIf (version ≥ 3) (ADec.field ADec.int32 (fun t x => { t with MaxBytes := x })) ;>>
    ADec.onlyIf (version ≥ 4) (ADec.field ADec.int8 (fun t x => { t with IsolationLevel := x })) ;>>
    ADec.onlyIf (version ≥ 7) (ADec.field ADec.int32 (fun t x => { t with SessionId := x })) ;>>
    ADec.onlyIf (version ≥ 7) (ADec.field ADec.int32 (fun t x => { t with Epoch := x })) ;>>
    ADec.fieldStructs (FetchableTopic1.decodeA version {}) (·.Topics) (fun t x => { t with Topics := x }) ;>>
    ADec.onlyIf (version ≥ 7) (ADec.fieldStructs (ForgottenTopic1.decodeA version {}) (·.Forgotten) (fun t x => { t with Forgotten := x })) ;>>
    ADec.onlyIf (version ≥ 11) (ADec.field ADec.string (fun t x => { t with RackId := x }))
theorem FetchRequest.erases (version : Int16) (t : FetchRequest) : Erases (FetchRequest.decodeA version t) (FetchRequest.decode version t) :=
  ((ErasesStep.field (.free _))
    |>.andThen (ErasesStep.field (.free _))
    |>.andThen (ErasesStep.field (.free _))
    |>.andThen (ErasesStep.onlyIf (ErasesStep.field (.free _)))
    |>.andThen (ErasesStep.onlyIf (ErasesStep.field (.free _)))
    |>.andThen (ErasesStep.onlyIf (ErasesStep.field (.free _)))
    |>.andThen (ErasesStep.onlyIf (ErasesStep.field (.free _)))
    |>.andThen (ErasesStep.structs (FetchableTopic1.erases version {}))
    |>.andThen (ErasesStep.onlyIf (ErasesStep.structs (ForgottenTopic1.erases version {})))
    |>.andThen (ErasesStep.onlyIf (ErasesStep.field .string)) : ErasesStep _ _) t
theorem FetchRequest.within (version : Int16) (t : FetchRequest) : Within (FetchRequest.decodeA version t) 16 2 :=
  (((WithinStep.field .int32)
    |>.andThen (WithinStep.field .int32)
    |>.andThen (WithinStep.field .int32)
    |>.andThen (WithinStep.onlyIf (fun _ => WithinStep.field .int32))
    |>.andThen (WithinStep.onlyIf (fun _ => WithinStep.field .int8))
    |>.andThen (WithinStep.onlyIf (fun _ => WithinStep.field .int32))
    |>.andThen (WithinStep.onlyIf (fun _ => WithinStep.field .int32))
    |>.andThen (WithinStep.structs ((FetchableTopic1.within version {}).mono (by decide) (Nat.le_refl _)))
    |>.andThen (WithinStep.onlyIf (fun h => WithinStep.structs ((ForgottenTopic1.within version {} h).mono (by decide) (Nat.le_refl _))))
    |>.andThen (WithinStep.onlyIf (fun _ => WithinStep.field .string)) : WithinStep _ _ _) t).mono (by decide) (by decide)

/-- message/messages.gen.go:1117-1132 `AbortedTransaction1.Decode`, with the memory it asks for -/
def AbortedTransaction1.decodeA (version : Int16) : AbortedTransaction1 → ADec AbortedTransaction1 :=
    ADec.onlyIf (version ≥ 4) (ADec.field ADec.int64 (fun t x => { t with ProducerId := x })) ;>>
    ADec.onlyIf (version ≥ 4) (ADec.field ADec.int64 (fun t x => { t with FirstOffset := x }))
theorem AbortedTransaction1.erases (version : Int16) (t : AbortedTransaction1) : Erases (AbortedTransaction1.decodeA version t) (AbortedTransaction1.decode version t) :=
  ((ErasesStep.onlyIf (ErasesStep.field (.free _)))
    |>.andThen (ErasesStep.onlyIf (ErasesStep.field (.free _))) : ErasesStep _ _) t
theorem AbortedTransaction1.within (version : Int16) (t : AbortedTransaction1) (h : version ≥ 4) : Within (AbortedTransaction1.decodeA version t) 8 0 :=
  (((WithinStep.present h (WithinStep.field .int64))
    |>.andThen (WithinStep.onlyIf (fun _ => WithinStep.field .int64)) : WithinStep _ _ _) t).mono (by decide) (by decide)

/-- message/messages.gen.go:1035-1087 `FetchablePartitionResponse1.Decode`, with the memory it asks for -/
def FetchablePartitionResponse1.decodeA (version : Int16) : FetchablePartitionResponse1 → ADec FetchablePartitionResponse1 :=
    ADec.field ADec.int32 (fun t x => { t with PartitionIndex := x }) ;>>
    ADec.field ADec.int16 (fun t x => { t with ErrorCode := x }) ;>>
    ADec.field ADec.int64 (fun t x => { t with HighWatermark := x }) ;>>
    ADec.onlyIf (version ≥ 4) (ADec.field ADec.int64 (fun t x => { t with LastStableOffset := x })) ;>>
    ADec.onlyIf (version ≥ 5) (ADec.field ADec.int64 (fun t x => { t with LogStartOffset := x })) ;>>
    ADec.onlyIf (version ≥ 4) (ADec.fieldStructs (AbortedTransaction1.decodeA version {}) (·.Aborted) (fun t x => { t with Aborted := x })) ;>>
    ADec.onlyIf (version ≥ 11) (ADec.field ADec.int32 (fun t x => { t with PreferredReadReplica := x })) ;>>
    ADec.field ADec.bytes (fun t x => { t with Records := x })
theorem FetchablePartitionResponse1.erases (version : Int16) (t : FetchablePartitionResponse1) : Erases (FetchablePartitionResponse1.decodeA version t) (FetchablePartitionResponse1.decode version t) :=
  ((ErasesStep.field (.free _))
    |>.andThen (ErasesStep.field (.free _))
    |>.andThen (ErasesStep.field (.free _))
    |>.andThen (ErasesStep.onlyIf (ErasesStep.field (.free _)))
    |>.andThen (ErasesStep.onlyIf (ErasesStep.field (.free _)))
    |>.andThen (ErasesStep.onlyIf (ErasesStep.structs (AbortedTransaction1.erases version {})))
    |>.andThen (ErasesStep.onlyIf (ErasesStep.field (.free _)))
    |>.andThen (ErasesStep.field (.free _)) : ErasesStep _ _) t
theorem FetchablePartitionResponse1.within (version : Int16) (t : FetchablePartitionResponse1) : Within (FetchablePartitionResponse1.decodeA version t) 18 1 :=
  (((WithinStep.field .int32)
    |>.andThen (WithinStep.field .int16)
    |>.andThen (WithinStep.field .int64)
    |>.andThen (WithinStep.onlyIf (fun _ => WithinStep.field .int64))
    |>.andThen (WithinStep.onlyIf (fun _ => WithinStep.field .int64))
    |>.andThen (WithinStep.onlyIf (fun h => WithinStep.structs ((AbortedTransaction1.within version {} h).mono (by decide) (Nat.le_refl _))))
    |>.andThen (WithinStep.onlyIf (fun _ => WithinStep.field .int32))
    |>.andThen (WithinStep.field .bytes) : WithinStep _ _ _) t).mono (by decide) (by decide)

/-- message/messages.gen.go:951-971 `FetchableTopicResponse1.Decode`, with the memory it asks for -/
def FetchableTopicResponse1.decodeA (version : Int16) : FetchableTopicResponse1 → ADec FetchableTopicResponse1 :=
    ADec.field ADec.string (fun t x => { t with Name := x }) ;>>
    ADec.fieldStructs (FetchablePartitionResponse1.decodeA version {}) (·.Partitions) (fun t x => { t with Partitions := x })
theorem FetchableTopicResponse1.erases (version : Int16) (t : FetchableTopicResponse1) : Erases (FetchableTopicResponse1.decodeA version t) (FetchableTopicResponse1.decode version t) :=
  ((ErasesStep.field .string)
    |>.andThen (ErasesStep.structs (FetchablePartitionResponse1.erases version {})) : ErasesStep _ _) t
theorem FetchableTopicResponse1.within (version : Int16) (t : FetchableTopicResponse1) : Within (FetchableTopicResponse1.decodeA version t) 6 2 :=
  (((WithinStep.field .string)
    |>.andThen (WithinStep.structs ((FetchablePartitionResponse1.within version {}).mono (by decide) (Nat.le_refl _))) : WithinStep _ _ _) t).mono (by decide) (by decide)

/-- message/messages.gen.go:887-921 `FetchResponse.Decode`, with the memory it asks for -/
def FetchResponse.decodeA (version : Int16) : FetchResponse → ADec FetchResponse :=
    ADec.onlyIf (version ≥ 1) (ADec.field ADec.int32 (fun t x => { t with ThrottleTimeMs := x })) ;>>
    ADec.onlyIf (version ≥ 7) (ADec.field ADec.int16 (fun t x => { t with ErrorCode := x })) ;>>
    ADec.onlyIf (version ≥ 7) (ADec.field ADec.int32 (fun t x => { t with SessionId := x })) ;>>
    ADec.fieldStructs (FetchableTopicResponse1.decodeA version {}) (·.Topics) (fun t x => { t with Topics := x })
theorem FetchResponse.erases (version : Int16) (t : FetchResponse) : Erases (FetchResponse.decodeA version t) (FetchResponse.decode version t) :=
  ((ErasesStep.onlyIf (ErasesStep.field (.free _)))
    |>.andThen (ErasesStep.onlyIf (ErasesStep.field (.free _)))
    |>.andThen (ErasesStep.onlyIf (ErasesStep.field (.free _)))
    |>.andThen (ErasesStep.structs (FetchableTopicResponse1.erases version {})) : ErasesStep _ _) t
theorem FetchResponse.within (version : Int16) (t : FetchResponse) : Within (FetchResponse.decodeA version t) 4 3 :=
  (((WithinStep.onlyIf (fun _ => WithinStep.field .int32))
    |>.andThen (WithinStep.onlyIf (fun _ => WithinStep.field .int16))
    |>.andThen (WithinStep.onlyIf (fun _ => WithinStep.field .int32))
    |>.andThen (WithinStep.structs ((FetchableTopicResponse1.within version {}).mono (by decide) (Nat.le_refl _))) : WithinStep _ _ _) t).mono (by decide) (by decide)

end Kafka.Msg
