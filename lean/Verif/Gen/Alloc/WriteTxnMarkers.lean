import Verif.Message.AllocLemmas
import Verif.Gen.Model.WriteTxnMarkers
/-!
Generated by tools/gen_messages.py: memory asked for by decoding the WriteTxnMarkers messages.
-/
namespace Kafka.Msg

/-- message/messages.gen.go:7157-7168 `WritableTxnMarkerTopic27.Decode`, with the memory it asks for -/
def WritableTxnMarkerTopic27.decodeA (_version : Int16) : WritableTxnMarkerTopic27 → ADec WritableTxnMarkerTopic27 :=
    ADec.field ADec.string (fun t x => { t with Name := x }) ;>>
    ADec.field ADec.int32Array (fun t x => { t with PartitionIndexes := x })
theorem WritableTxnMarkerTopic27.erases (version : Int16) (t : WritableTxnMarkerTopic27) : Erases (WritableTxnMarkerTopic27.decodeA version t) (WritableTxnMarkerTopic27.decode version t) :=
  ((ErasesStep.field .string)
    |>.andThen (ErasesStep.field (.arrayOf (.free _))) : ErasesStep _ _) t
theorem WritableTxnMarkerTopic27.within (version : Int16) (t : WritableTxnMarkerTopic27) : Within (WritableTxnMarkerTopic27.decodeA version t) 6 1 :=
  (((WithinStep.field .string)
    |>.andThen (WithinStep.field .int32Array) : WithinStep _ _ _) t).mono (by decide) (by decide)

/-- message/messages.gen.go:7103-7135 `WritableTxnMarker27.Decode`, with the memory it asks for -/
def WritableTxnMarker27.decodeA (version : Int16) : WritableTxnMarker27 → ADec WritableTxnMarker27 :=
    ADec.field ADec.int64 (fun t x => { t with ProducerId := x }) ;>>
    ADec.field ADec.int16 (fun t x => { t with ProducerEpoch := x }) ;>>
    ADec.field ADec.bool (fun t x => { t with TransactionResult := x }) ;>>
    ADec.fieldStructs (WritableTxnMarkerTopic27.decodeA version {}) (·.Topics) (fun t x => { t with Topics := x }) ;>>
    ADec.field ADec.int32 (fun t x => { t with CoordinatorEpoch := x })
theorem WritableTxnMarker27.erases (version : Int16) (t : WritableTxnMarker27) : Erases (WritableTxnMarker27.decodeA version t) (WritableTxnMarker27.decode version t) :=
  ((ErasesStep.field (.free _))
    |>.andThen (ErasesStep.field (.free _))
    |>.andThen (ErasesStep.field (.free _))
    |>.andThen (ErasesStep.structs (WritableTxnMarkerTopic27.erases version {}))
    |>.andThen (ErasesStep.field (.free _)) : ErasesStep _ _) t
theorem WritableTxnMarker27.within (version : Int16) (t : WritableTxnMarker27) : Within (WritableTxnMarker27.decodeA version t) 19 2 :=
  (((WithinStep.field .int64)
    |>.andThen (WithinStep.field .int16)
    |>.andThen (WithinStep.field .bool)
    |>.andThen (WithinStep.structs ((WritableTxnMarkerTopic27.within version {}).mono (by decide) (Nat.le_refl _)))
    |>.andThen (WithinStep.field .int32) : WithinStep _ _ _) t).mono (by decide) (by decide)

/-- message/messages.gen.go:7048-7064 `WriteTxnMarkersRequest.Decode`, with the memory it asks for -/
def WriteTxnMarkersRequest.decodeA (version : Int16) : WriteTxnMarkersRequest → ADec WriteTxnMarkersRequest :=
    ADec.fieldStructs (WritableTxnMarker27.decodeA version {}) (·.Markers) (fun t x => { t with Markers := x })
theorem WriteTxnMarkersRequest.erases (version : Int16) (t : WriteTxnMarkersRequest) : Erases (WriteTxnMarkersRequest.decodeA version t) (WriteTxnMarkersRequest.decode version t) :=
  (ErasesStep.structs (WritableTxnMarker27.erases version {}) : ErasesStep _ _) t
theorem WriteTxnMarkersRequest.within (version : Int16) (t : WriteTxnMarkersRequest) : Within (WriteTxnMarkersRequest.decodeA version t) 4 3 :=
  ((WithinStep.structs ((WritableTxnMarker27.within version {}).mono (by decide) (Nat.le_refl _)) : WithinStep _ _ _) t).mono (by decide) (by decide)

/-- message/messages.gen.go:7334-7345 `WritableTxnMarkerPartitionResult27.Decode`, with the memory it asks for -/
def WritableTxnMarkerPartitionResult27.decodeA (_version : Int16) : WritableTxnMarkerPartitionResult27 → ADec WritableTxnMarkerPartitionResult27 :=
    ADec.field ADec.int32 (fun t x => { t with PartitionIndex := x }) ;>>
    ADec.field ADec.int16 (fun t x => { t with ErrorCode := x })
theorem WritableTxnMarkerPartitionResult27.erases (version : Int16) (t : WritableTxnMarkerPartitionResult27) : Erases (WritableTxnMarkerPartitionResult27.decodeA version t) (WritableTxnMarkerPartitionResult27.decode version t) :=
  ((ErasesStep.field (.free _))
    |>.andThen (ErasesStep.field (.free _)) : ErasesStep _ _) t
theorem WritableTxnMarkerPartitionResult27.within (version : Int16) (t : WritableTxnMarkerPartitionResult27) : Within (WritableTxnMarkerPartitionResult27.decodeA version t) 6 0 :=
  (((WithinStep.field .int32)
    |>.andThen (WithinStep.field .int16) : WithinStep _ _ _) t).mono (by decide) (by decide)

/-- message/messages.gen.go:7292-7312 `WritableTxnMarkerTopicResult27.Decode`, with the memory it asks for -/
def WritableTxnMarkerTopicResult27.decodeA (version : Int16) : WritableTxnMarkerTopicResult27 → ADec WritableTxnMarkerTopicResult27 :=
    ADec.field ADec.string (fun t x => { t with Name := x }) ;>>
    ADec.fieldStructs (WritableTxnMarkerPartitionResult27.decodeA version {}) (·.Partitions) (fun t x => { t with Partitions := x })
theorem WritableTxnMarkerTopicResult27.erases (version : Int16) (t : WritableTxnMarkerTopicResult27) : Erases (WritableTxnMarkerTopicResult27.decodeA version t) (WritableTxnMarkerTopicResult27.decode version t) :=
  ((ErasesStep.field .string)
    |>.andThen (ErasesStep.structs (WritableTxnMarkerPartitionResult27.erases version {})) : ErasesStep _ _) t
theorem WritableTxnMarkerTopicResult27.within (version : Int16) (t : WritableTxnMarkerTopicResult27) : Within (WritableTxnMarkerTopicResult27.decodeA version t) 6 1 :=
  (((WithinStep.field .string)
    |>.andThen (WithinStep.structs ((WritableTxnMarkerPartitionResult27.within version {}).mono (by decide) (Nat.le_refl _))) : WithinStep _ _ _) t).mono (by decide) (by decide)

/-- message/messages.gen.go:7242-7262 `WritableTxnMarkerResult27.Decode`, with the memory it asks for -/
def WritableTxnMarkerResult27.decodeA (version : Int16) : WritableTxnMarkerResult27 → ADec WritableTxnMarkerResult27 :=
    ADec.field ADec.int64 (fun t x => { t with ProducerId := x }) ;>>
    ADec.fieldStructs (WritableTxnMarkerTopicResult27.decodeA version {}) (·.Topics) (fun t x => { t with Topics := x })
theorem WritableTxnMarkerResult27.erases (version : Int16) (t : WritableTxnMarkerResult27) : Erases (WritableTxnMarkerResult27.decodeA version t) (WritableTxnMarkerResult27.decode version t) :=
  ((ErasesStep.field (.free _))
    |>.andThen (ErasesStep.structs (WritableTxnMarkerTopicResult27.erases version {})) : ErasesStep _ _) t
theorem WritableTxnMarkerResult27.within (version : Int16) (t : WritableTxnMarkerResult27) : Within (WritableTxnMarkerResult27.decodeA version t) 12 2 :=
  (((WithinStep.field .int64)
    |>.andThen (WithinStep.structs ((WritableTxnMarkerTopicResult27.within version {}).mono (by decide) (Nat.le_refl _))) : WithinStep _ _ _) t).mono (by decide) (by decide)

/-- message/messages.gen.go:7196-7212 `WriteTxnMarkersResponse.Decode`, with the memory it asks for -/
def WriteTxnMarkersResponse.decodeA (version : Int16) : WriteTxnMarkersResponse → ADec WriteTxnMarkersResponse :=
    ADec.fieldStructs (WritableTxnMarkerResult27.decodeA version {}) (·.Markers) (fun t x => { t with Markers := x })
theorem WriteTxnMarkersResponse.erases (version : Int16) (t : WriteTxnMarkersResponse) : Erases (WriteTxnMarkersResponse.decodeA version t) (WriteTxnMarkersResponse.decode version t) :=
  (ErasesStep.structs (WritableTxnMarkerResult27.erases version {}) : ErasesStep _ _) t
theorem WriteTxnMarkersResponse.within (version : Int16) (t : WriteTxnMarkersResponse) : Within (WriteTxnMarkersResponse.decodeA version t) 4 3 :=
  ((WithinStep.structs ((WritableTxnMarkerResult27.within version {}).mono (by decide) (Nat.le_refl _)) : WithinStep _ _ _) t).mono (by decide) (by decide)

end Kafka.Msg
