import Verif.Message.AllocLemmas
import Verif.Gen.Model.AddPartitionsToTxn
/-!
Generated by tools/gen_messages.py: memory asked for by decoding the AddPartitionsToTxn messages.
-/
namespace Kafka.Msg

/-- message/messages.gen.go:6711-6722 `AddPartitionsToTxnTopic24.Decode`, with the memory it asks for -/
def AddPartitionsToTxnTopic24.decodeA (_version : Int16) : AddPartitionsToTxnTopic24 → ADec AddPartitionsToTxnTopic24 :=
    ADec.field ADec.string (fun t x => { t with Name := x }) ;>>
    ADec.field ADec.int32Array (fun t x => { t with Partitions := x })
theorem AddPartitionsToTxnTopic24.erases (version : Int16) (t : AddPartitionsToTxnTopic24) : Erases (AddPartitionsToTxnTopic24.decodeA version t) (AddPartitionsToTxnTopic24.decode version t) :=
  ((ErasesStep.field .string)
    |>.andThen (ErasesStep.field (.arrayOf (.free _))) : ErasesStep _ _) t
theorem AddPartitionsToTxnTopic24.within (version : Int16) (t : AddPartitionsToTxnTopic24) : Within (AddPartitionsToTxnTopic24.decodeA version t) 6 1 :=
  (((WithinStep.field .string)
    |>.andThen (WithinStep.field .int32Array) : WithinStep _ _ _) t).mono (by decide) (by decide)

/-- message/messages.gen.go:6661-6689 `AddPartitionsToTxnRequest.Decode`, with the memory it asks for -/
def AddPartitionsToTxnRequest.decodeA (version : Int16) : AddPartitionsToTxnRequest → ADec AddPartitionsToTxnRequest :=
    ADec.field ADec.string (fun t x => { t with TransactionalId := x }) ;>>
    ADec.field ADec.int64 (fun t x => { t with ProducerId := x }) ;>>
    ADec.field ADec.int16 (fun t x => { t with ProducerEpoch := x }) ;>>
    ADec.fieldStructs (AddPartitionsToTxnTopic24.decodeA version {}) (·.Topics) (fun t x => { t with Topics := x })
theorem AddPartitionsToTxnRequest.erases (version : Int16) (t : AddPartitionsToTxnRequest) : Erases (AddPartitionsToTxnRequest.decodeA version t) (AddPartitionsToTxnRequest.decode version t) :=
  ((ErasesStep.field .string)
    |>.andThen (ErasesStep.field (.free _))
    |>.andThen (ErasesStep.field (.free _))
    |>.andThen (ErasesStep.structs (AddPartitionsToTxnTopic24.erases version {})) : ErasesStep _ _) t
theorem AddPartitionsToTxnRequest.within (version : Int16) (t : AddPartitionsToTxnRequest) : Within (AddPartitionsToTxnRequest.decodeA version t) 16 2 :=
  (((WithinStep.field .string)
    |>.andThen (WithinStep.field .int64)
    |>.andThen (WithinStep.field .int16)
    |>.andThen (WithinStep.structs ((AddPartitionsToTxnTopic24.within version {}).mono (by decide) (Nat.le_refl _))) : WithinStep _ _ _) t).mono (by decide) (by decide)

/-- message/messages.gen.go:6845-6856 `AddPartitionsToTxnPartitionResult24.Decode`, with the memory it asks for -/
def AddPartitionsToTxnPartitionResult24.decodeA (_version : Int16) : AddPartitionsToTxnPartitionResult24 → ADec AddPartitionsToTxnPartitionResult24 :=
    ADec.field ADec.int32 (fun t x => { t with PartitionIndex := x }) ;>>
    ADec.field ADec.int16 (fun t x => { t with ErrorCode := x })
theorem AddPartitionsToTxnPartitionResult24.erases (version : Int16) (t : AddPartitionsToTxnPartitionResult24) : Erases (AddPartitionsToTxnPartitionResult24.decodeA version t) (AddPartitionsToTxnPartitionResult24.decode version t) :=
  ((ErasesStep.field (.free _))
    |>.andThen (ErasesStep.field (.free _)) : ErasesStep _ _) t
theorem AddPartitionsToTxnPartitionResult24.within (version : Int16) (t : AddPartitionsToTxnPartitionResult24) : Within (AddPartitionsToTxnPartitionResult24.decodeA version t) 6 0 :=
  (((WithinStep.field .int32)
    |>.andThen (WithinStep.field .int16) : WithinStep _ _ _) t).mono (by decide) (by decide)

/-- message/messages.gen.go:6803-6823 `AddPartitionsToTxnTopicResult24.Decode`, with the memory it asks for -/
def AddPartitionsToTxnTopicResult24.decodeA (version : Int16) : AddPartitionsToTxnTopicResult24 → ADec AddPartitionsToTxnTopicResult24 :=
    ADec.field ADec.string (fun t x => { t with Name := x }) ;>>
    ADec.fieldStructs (AddPartitionsToTxnPartitionResult24.decodeA version {}) (·.Results) (fun t x => { t with Results := x })
theorem AddPartitionsToTxnTopicResult24.erases (version : Int16) (t : AddPartitionsToTxnTopicResult24) : Erases (AddPartitionsToTxnTopicResult24.decodeA version t) (AddPartitionsToTxnTopicResult24.decode version t) :=
  ((ErasesStep.field .string)
    |>.andThen (ErasesStep.structs (AddPartitionsToTxnPartitionResult24.erases version {})) : ErasesStep _ _) t
theorem AddPartitionsToTxnTopicResult24.within (version : Int16) (t : AddPartitionsToTxnTopicResult24) : Within (AddPartitionsToTxnTopicResult24.decodeA version t) 6 1 :=
  (((WithinStep.field .string)
    |>.andThen (WithinStep.structs ((AddPartitionsToTxnPartitionResult24.within version {}).mono (by decide) (Nat.le_refl _))) : WithinStep _ _ _) t).mono (by decide) (by decide)

/-- message/messages.gen.go:6753-6773 `AddPartitionsToTxnResponse.Decode`, with the memory it asks for -/
def AddPartitionsToTxnResponse.decodeA (version : Int16) : AddPartitionsToTxnResponse → ADec AddPartitionsToTxnResponse :=
    ADec.field ADec.int32 (fun t x => { t with ThrottleTimeMs := x }) ;>>
    ADec.fieldStructs (AddPartitionsToTxnTopicResult24.decodeA version {}) (·.Results) (fun t x => { t with Results := x })
theorem AddPartitionsToTxnResponse.erases (version : Int16) (t : AddPartitionsToTxnResponse) : Erases (AddPartitionsToTxnResponse.decodeA version t) (AddPartitionsToTxnResponse.decode version t) :=
  ((ErasesStep.field (.free _))
    |>.andThen (ErasesStep.structs (AddPartitionsToTxnTopicResult24.erases version {})) : ErasesStep _ _) t
theorem AddPartitionsToTxnResponse.within (version : Int16) (t : AddPartitionsToTxnResponse) : Within (AddPartitionsToTxnResponse.decodeA version t) 8 2 :=
  (((WithinStep.field .int32)
    |>.andThen (WithinStep.structs ((AddPartitionsToTxnTopicResult24.within version {}).mono (by decide) (Nat.le_refl _))) : WithinStep _ _ _) t).mono (by decide) (by decide)

end Kafka.Msg
