import Verif.Message.AllocLemmas
import Verif.Gen.Model.Produce
/-!
Generated by tools/gen_messages.py: memory asked for by decoding the Produce messages.
-/
namespace Kafka.Msg

/-- message/messages.gen.go:164-175 `PartitionProduceData0.Decode`, with the memory it asks for -/
def PartitionProduceData0.decodeA (_version : Int16) : PartitionProduceData0 → ADec PartitionProduceData0 :=
    ADec.field ADec.int32 (fun t x => { t with PartitionIndex := x }) ;>>
    ADec.field ADec.bytes (fun t x => { t with Records := x })
theorem PartitionProduceData0.erases (version : Int16) (t : PartitionProduceData0) : Erases (PartitionProduceData0.decodeA version t) (PartitionProduceData0.decode version t) :=
  ((ErasesStep.field (.free _))
    |>.andThen (ErasesStep.field (.free _)) : ErasesStep _ _) t
theorem PartitionProduceData0.within (version : Int16) (t : PartitionProduceData0) : Within (PartitionProduceData0.decodeA version t) 8 0 :=
  (((WithinStep.field .int32)
    |>.andThen (WithinStep.field .bytes) : WithinStep _ _ _) t).mono (by decide) (by decide)

/-- message/messages.gen.go:122-142 `TopicProduceData0.Decode`, with the memory it asks for -/
def TopicProduceData0.decodeA (version : Int16) : TopicProduceData0 → ADec TopicProduceData0 :=
    ADec.field ADec.string (fun t x => { t with Name := x }) ;>>
    ADec.fieldStructs (PartitionProduceData0.decodeA version {}) (·.Partitions) (fun t x => { t with Partitions := x })
theorem TopicProduceData0.erases (version : Int16) (t : TopicProduceData0) : Erases (TopicProduceData0.decodeA version t) (TopicProduceData0.decode version t) :=
  ((ErasesStep.field .string)
    |>.andThen (ErasesStep.structs (PartitionProduceData0.erases version {})) : ErasesStep _ _) t
theorem TopicProduceData0.within (version : Int16) (t : TopicProduceData0) : Within (TopicProduceData0.decodeA version t) 6 1 :=
  (((WithinStep.field .string)
    |>.andThen (WithinStep.structs ((PartitionProduceData0.within version {}).mono (by decide) (Nat.le_refl _))) : WithinStep _ _ _) t).mono (by decide) (by decide)

/-- message/messages.gen.go:62-92 `ProduceRequest.Decode`, with the memory it asks for -/
def ProduceRequest.decodeA (version : Int16) : ProduceRequest → ADec ProduceRequest :=
    ADec.onlyIf (version ≥ 3) (ADec.field ADec.string (fun t x => { t with TransactionalId := x })) ;>>
    ADec.field ADec.int16 (fun t x => { t with Acks := x }) ;>>
    ADec.field ADec.int32 (fun t x => { t with TimeoutMs := x }) ;>>
    ADec.fieldStructs (TopicProduceData0.decodeA version {}) (·.Topics) (fun t x => { t with Topics := x })
theorem ProduceRequest.erases (version : Int16) (t : ProduceRequest) : Erases (ProduceRequest.decodeA version t) (ProduceRequest.decode version t) :=
  ((ErasesStep.onlyIf (ErasesStep.field .string))
    |>.andThen (ErasesStep.field (.free _))
    |>.andThen (ErasesStep.field (.free _))
    |>.andThen (ErasesStep.structs (TopicProduceData0.erases version {})) : ErasesStep _ _) t
theorem ProduceRequest.within (version : Int16) (t : ProduceRequest) : Within (ProduceRequest.decodeA version t) 10 2 :=
  (((WithinStep.onlyIf (fun _ => WithinStep.field .string))
    |>.andThen (WithinStep.field .int16)
    |>.andThen (WithinStep.field .int32)
    |>.andThen (WithinStep.structs ((TopicProduceData0.within version {}).mono (by decide) (Nat.le_refl _))) : WithinStep _ _ _) t).mono (by decide) (by decide)

/-- message/messages.gen.go:421-436 `BatchIndexAndErrorMessage0.Decode`, with the memory it asks for -/
def BatchIndexAndErrorMessage0.decodeA (version : Int16) : BatchIndexAndErrorMessage0 → ADec BatchIndexAndErrorMessage0 :=
    ADec.onlyIf (version ≥ 8) (ADec.field ADec.int32 (fun t x => { t with BatchIndex := x })) ;>>
    ADec.onlyIf (version ≥ 8) (ADec.field ADec.string (fun t x => { t with BatchIndexErrorMessage := x }))
theorem BatchIndexAndErrorMessage0.erases (version : Int16) (t : BatchIndexAndErrorMessage0) : Erases (BatchIndexAndErrorMessage0.decodeA version t) (BatchIndexAndErrorMessage0.decode version t) :=
  ((ErasesStep.onlyIf (ErasesStep.field (.free _)))
    |>.andThen (ErasesStep.onlyIf (ErasesStep.field .string)) : ErasesStep _ _) t
theorem BatchIndexAndErrorMessage0.within (version : Int16) (t : BatchIndexAndErrorMessage0) (h : version ≥ 8) : Within (BatchIndexAndErrorMessage0.decodeA version t) 4 0 :=
  (((WithinStep.present h (WithinStep.field .int32))
    |>.andThen (WithinStep.onlyIf (fun _ => WithinStep.field .string)) : WithinStep _ _ _) t).mono (by decide) (by decide)

/-- message/messages.gen.go:343-391 `PartitionProduceResponse0.Decode`, with the memory it asks for -/
def PartitionProduceResponse0.decodeA (version : Int16) : PartitionProduceResponse0 → ADec PartitionProduceResponse0 :=
    ADec.field ADec.int32 (fun t x => { t with PartitionIndex := x }) ;>>
    ADec.field ADec.int16 (fun t x => { t with ErrorCode := x }) ;>>
    ADec.field ADec.int64 (fun t x => { t with BaseOffset := x }) ;>>
    ADec.onlyIf (version ≥ 2) (ADec.field ADec.int64 (fun t x => { t with LogAppendTimeMs := x })) ;>>
    ADec.onlyIf (version ≥ 5) (ADec.field ADec.int64 (fun t x => { t with LogStartOffset := x })) ;>>
    ADec.onlyIf (version ≥ 8) (ADec.fieldStructs (BatchIndexAndErrorMessage0.decodeA version {}) (·.RecordErrors) (fun t x => { t with RecordErrors := x })) ;>>
    ADec.onlyIf (version ≥ 8) (ADec.field ADec.string (fun t x => { t with ErrorMessage := x }))
theorem PartitionProduceResponse0.erases (version : Int16) (t : PartitionProduceResponse0) : Erases (PartitionProduceResponse0.decodeA version t) (PartitionProduceResponse0.decode version t) :=
  ((ErasesStep.field (.free _))
    |>.andThen (ErasesStep.field (.free _))
    |>.andThen (ErasesStep.field (.free _))
    |>.andThen (ErasesStep.onlyIf (ErasesStep.field (.free _)))
    |>.andThen (ErasesStep.onlyIf (ErasesStep.field (.free _)))
    |>.andThen (ErasesStep.onlyIf (ErasesStep.structs (BatchIndexAndErrorMessage0.erases version {})))
    |>.andThen (ErasesStep.onlyIf (ErasesStep.field .string)) : ErasesStep _ _) t
theorem PartitionProduceResponse0.within (version : Int16) (t : PartitionProduceResponse0) : Within (PartitionProduceResponse0.decodeA version t) 14 1 :=
  (((WithinStep.field .int32)
    |>.andThen (WithinStep.field .int16)
    |>.andThen (WithinStep.field .int64)
    |>.andThen (WithinStep.onlyIf (fun _ => WithinStep.field .int64))
    |>.andThen (WithinStep.onlyIf (fun _ => WithinStep.field .int64))
    |>.andThen (WithinStep.onlyIf (fun h => WithinStep.structs ((BatchIndexAndErrorMessage0.within version {} h).mono (by decide) (Nat.le_refl _))))
    |>.andThen (WithinStep.onlyIf (fun _ => WithinStep.field .string)) : WithinStep _ _ _) t).mono (by decide) (by decide)

/-- message/messages.gen.go:262-282 `TopicProduceResponse0.Decode`, with the memory it asks for -/
def TopicProduceResponse0.decodeA (version : Int16) : TopicProduceResponse0 → ADec TopicProduceResponse0 :=
    ADec.field ADec.string (fun t x => { t with Name := x }) ;>>
    ADec.fieldStructs (PartitionProduceResponse0.decodeA version {}) (·.Partitions) (fun t x => { t with Partitions := x })
theorem TopicProduceResponse0.erases (version : Int16) (t : TopicProduceResponse0) : Erases (TopicProduceResponse0.decodeA version t) (TopicProduceResponse0.decode version t) :=
  ((ErasesStep.field .string)
    |>.andThen (ErasesStep.structs (PartitionProduceResponse0.erases version {})) : ErasesStep _ _) t
theorem TopicProduceResponse0.within (version : Int16) (t : TopicProduceResponse0) : Within (TopicProduceResponse0.decodeA version t) 6 2 :=
  (((WithinStep.field .string)
    |>.andThen (WithinStep.structs ((PartitionProduceResponse0.within version {}).mono (by decide) (Nat.le_refl _))) : WithinStep _ _ _) t).mono (by decide) (by decide)

/-- message/messages.gen.go:210-232 `ProduceResponse.Decode`, with the memory it asks for -/
def ProduceResponse.decodeA (version : Int16) : ProduceResponse → ADec ProduceResponse :=
    ADec.fieldStructs (TopicProduceResponse0.decodeA version {}) (·.Responses) (fun t x => { t with Responses := x }) ;>>
    ADec.onlyIf (version ≥ 1) (ADec.field ADec.int32 (fun t x => { t with ThrottleTimeMs := x }))
theorem ProduceResponse.erases (version : Int16) (t : ProduceResponse) : Erases (ProduceResponse.decodeA version t) (ProduceResponse.decode version t) :=
  ((ErasesStep.structs (TopicProduceResponse0.erases version {}))
    |>.andThen (ErasesStep.onlyIf (ErasesStep.field (.free _))) : ErasesStep _ _) t
theorem ProduceResponse.within (version : Int16) (t : ProduceResponse) : Within (ProduceResponse.decodeA version t) 4 3 :=
  (((WithinStep.structs ((TopicProduceResponse0.within version {}).mono (by decide) (Nat.le_refl _)))
    |>.andThen (WithinStep.onlyIf (fun _ => WithinStep.field .int32)) : WithinStep _ _ _) t).mono (by decide) (by decide)

end Kafka.Msg
