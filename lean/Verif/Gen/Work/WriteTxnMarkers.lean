import Verif.Message.Work
import Verif.Gen.Model.WriteTxnMarkers
/-!
Generated by tools/gen_messages.py: steps taken by decoding the WriteTxnMarkers messages.
-/
namespace Kafka.Msg

/-- message/messages.gen.go:7157-7168 `WritableTxnMarkerTopic27.Decode`, with the steps it takes -/
def WritableTxnMarkerTopic27.decodeW (_version : Int16) : WritableTxnMarkerTopic27 → ADec WritableTxnMarkerTopic27 :=
    ADec.field WDec.string (fun t x => { t with Name := x }) ;>>
    ADec.field WDec.int32Array (fun t x => { t with PartitionIndexes := x })
theorem WritableTxnMarkerTopic27.erasesW (version : Int16) (t : WritableTxnMarkerTopic27) : Erases (WritableTxnMarkerTopic27.decodeW version t) (WritableTxnMarkerTopic27.decode version t) :=
  ((ErasesStep.field .stringW)
    |>.andThen (ErasesStep.field (.arrayOfW (.read _))) : ErasesStep _ _) t
theorem WritableTxnMarkerTopic27.spends (version : Int16) (t : WritableTxnMarkerTopic27) : Spends (WritableTxnMarkerTopic27.decodeW version t) 10 1 :=
  (((SpendsStep.field .string)
    |>.andThen (SpendsStep.field .int32Array) : SpendsStep _ _) t).mono (by decide) (by decide)
theorem WritableTxnMarkerTopic27.spends0 (version : Int16) (t : WritableTxnMarkerTopic27) : Spends (WritableTxnMarkerTopic27.decodeW version t) 0 1 :=
  (WritableTxnMarkerTopic27.spends version t).mono (Nat.zero_le _) (Nat.le_refl _)

/-- message/messages.gen.go:7103-7135 `WritableTxnMarker27.Decode`, with the steps it takes -/
def WritableTxnMarker27.decodeW (version : Int16) : WritableTxnMarker27 → ADec WritableTxnMarker27 :=
    ADec.field WDec.int64 (fun t x => { t with ProducerId := x }) ;>>
    ADec.field WDec.int16 (fun t x => { t with ProducerEpoch := x }) ;>>
    ADec.field WDec.bool (fun t x => { t with TransactionResult := x }) ;>>
    WDec.fieldStructs (WritableTxnMarkerTopic27.decodeW version {}) (·.Topics) (fun t x => { t with Topics := x }) ;>>
    ADec.field WDec.int32 (fun t x => { t with CoordinatorEpoch := x })
theorem WritableTxnMarker27.erasesW (version : Int16) (t : WritableTxnMarker27) : Erases (WritableTxnMarker27.decodeW version t) (WritableTxnMarker27.decode version t) :=
  ((ErasesStep.field (.read _))
    |>.andThen (ErasesStep.field (.read _))
    |>.andThen (ErasesStep.field (.read _))
    |>.andThen (ErasesStep.structsW (WritableTxnMarkerTopic27.erasesW version {}))
    |>.andThen (ErasesStep.field (.read _)) : ErasesStep _ _) t
theorem WritableTxnMarker27.spends (version : Int16) (t : WritableTxnMarker27) : Spends (WritableTxnMarker27.decodeW version t) 33 1 :=
  (((SpendsStep.field .int64)
    |>.andThen (SpendsStep.field .int16)
    |>.andThen (SpendsStep.field .bool)
    |>.andThen (SpendsStep.structs ((WritableTxnMarkerTopic27.spends version {}).mono (by decide) (Nat.le_refl _)))
    |>.andThen (SpendsStep.field .int32) : SpendsStep _ _) t).mono (by decide) (by decide)
theorem WritableTxnMarker27.spends0 (version : Int16) (t : WritableTxnMarker27) : Spends (WritableTxnMarker27.decodeW version t) 0 1 :=
  (WritableTxnMarker27.spends version t).mono (Nat.zero_le _) (Nat.le_refl _)

/-- message/messages.gen.go:7048-7064 `WriteTxnMarkersRequest.Decode`, with the steps it takes -/
def WriteTxnMarkersRequest.decodeW (version : Int16) : WriteTxnMarkersRequest → ADec WriteTxnMarkersRequest :=
    WDec.fieldStructs (WritableTxnMarker27.decodeW version {}) (·.Markers) (fun t x => { t with Markers := x })
theorem WriteTxnMarkersRequest.erasesW (version : Int16) (t : WriteTxnMarkersRequest) : Erases (WriteTxnMarkersRequest.decodeW version t) (WriteTxnMarkersRequest.decode version t) :=
  (ErasesStep.structsW (WritableTxnMarker27.erasesW version {}) : ErasesStep _ _) t
theorem WriteTxnMarkersRequest.spends (version : Int16) (t : WriteTxnMarkersRequest) : Spends (WriteTxnMarkersRequest.decodeW version t) 7 1 :=
  ((SpendsStep.structs ((WritableTxnMarker27.spends version {}).mono (by decide) (Nat.le_refl _)) : SpendsStep _ _) t).mono (by decide) (by decide)
theorem WriteTxnMarkersRequest.spends0 (version : Int16) (t : WriteTxnMarkersRequest) : Spends (WriteTxnMarkersRequest.decodeW version t) 0 1 :=
  (WriteTxnMarkersRequest.spends version t).mono (Nat.zero_le _) (Nat.le_refl _)

/-- message/messages.gen.go:7334-7345 `WritableTxnMarkerPartitionResult27.Decode`, with the steps it takes -/
def WritableTxnMarkerPartitionResult27.decodeW (_version : Int16) : WritableTxnMarkerPartitionResult27 → ADec WritableTxnMarkerPartitionResult27 :=
    ADec.field WDec.int32 (fun t x => { t with PartitionIndex := x }) ;>>
    ADec.field WDec.int16 (fun t x => { t with ErrorCode := x })
theorem WritableTxnMarkerPartitionResult27.erasesW (version : Int16) (t : WritableTxnMarkerPartitionResult27) : Erases (WritableTxnMarkerPartitionResult27.decodeW version t) (WritableTxnMarkerPartitionResult27.decode version t) :=
  ((ErasesStep.field (.read _))
    |>.andThen (ErasesStep.field (.read _)) : ErasesStep _ _) t
theorem WritableTxnMarkerPartitionResult27.spends (version : Int16) (t : WritableTxnMarkerPartitionResult27) : Spends (WritableTxnMarkerPartitionResult27.decodeW version t) 10 1 :=
  (((SpendsStep.field .int32)
    |>.andThen (SpendsStep.field .int16) : SpendsStep _ _) t).mono (by decide) (by decide)
theorem WritableTxnMarkerPartitionResult27.spends0 (version : Int16) (t : WritableTxnMarkerPartitionResult27) : Spends (WritableTxnMarkerPartitionResult27.decodeW version t) 0 1 :=
  (WritableTxnMarkerPartitionResult27.spends version t).mono (Nat.zero_le _) (Nat.le_refl _)

/-- message/messages.gen.go:7292-7312 `WritableTxnMarkerTopicResult27.Decode`, with the steps it takes -/
def WritableTxnMarkerTopicResult27.decodeW (version : Int16) : WritableTxnMarkerTopicResult27 → ADec WritableTxnMarkerTopicResult27 :=
    ADec.field WDec.string (fun t x => { t with Name := x }) ;>>
    WDec.fieldStructs (WritableTxnMarkerPartitionResult27.decodeW version {}) (·.Partitions) (fun t x => { t with Partitions := x })
theorem WritableTxnMarkerTopicResult27.erasesW (version : Int16) (t : WritableTxnMarkerTopicResult27) : Erases (WritableTxnMarkerTopicResult27.decodeW version t) (WritableTxnMarkerTopicResult27.decode version t) :=
  ((ErasesStep.field .stringW)
    |>.andThen (ErasesStep.structsW (WritableTxnMarkerPartitionResult27.erasesW version {})) : ErasesStep _ _) t
theorem WritableTxnMarkerTopicResult27.spends (version : Int16) (t : WritableTxnMarkerTopicResult27) : Spends (WritableTxnMarkerTopicResult27.decodeW version t) 10 1 :=
  (((SpendsStep.field .string)
    |>.andThen (SpendsStep.structs ((WritableTxnMarkerPartitionResult27.spends version {}).mono (by decide) (Nat.le_refl _))) : SpendsStep _ _) t).mono (by decide) (by decide)
theorem WritableTxnMarkerTopicResult27.spends0 (version : Int16) (t : WritableTxnMarkerTopicResult27) : Spends (WritableTxnMarkerTopicResult27.decodeW version t) 0 1 :=
  (WritableTxnMarkerTopicResult27.spends version t).mono (Nat.zero_le _) (Nat.le_refl _)

/-- message/messages.gen.go:7242-7262 `WritableTxnMarkerResult27.Decode`, with the steps it takes -/
def WritableTxnMarkerResult27.decodeW (version : Int16) : WritableTxnMarkerResult27 → ADec WritableTxnMarkerResult27 :=
    ADec.field WDec.int64 (fun t x => { t with ProducerId := x }) ;>>
    WDec.fieldStructs (WritableTxnMarkerTopicResult27.decodeW version {}) (·.Topics) (fun t x => { t with Topics := x })
theorem WritableTxnMarkerResult27.erasesW (version : Int16) (t : WritableTxnMarkerResult27) : Erases (WritableTxnMarkerResult27.decodeW version t) (WritableTxnMarkerResult27.decode version t) :=
  ((ErasesStep.field (.read _))
    |>.andThen (ErasesStep.structsW (WritableTxnMarkerTopicResult27.erasesW version {})) : ErasesStep _ _) t
theorem WritableTxnMarkerResult27.spends (version : Int16) (t : WritableTxnMarkerResult27) : Spends (WritableTxnMarkerResult27.decodeW version t) 22 1 :=
  (((SpendsStep.field .int64)
    |>.andThen (SpendsStep.structs ((WritableTxnMarkerTopicResult27.spends version {}).mono (by decide) (Nat.le_refl _))) : SpendsStep _ _) t).mono (by decide) (by decide)
theorem WritableTxnMarkerResult27.spends0 (version : Int16) (t : WritableTxnMarkerResult27) : Spends (WritableTxnMarkerResult27.decodeW version t) 0 1 :=
  (WritableTxnMarkerResult27.spends version t).mono (Nat.zero_le _) (Nat.le_refl _)

/-- message/messages.gen.go:7196-7212 `WriteTxnMarkersResponse.Decode`, with the steps it takes -/
def WriteTxnMarkersResponse.decodeW (version : Int16) : WriteTxnMarkersResponse → ADec WriteTxnMarkersResponse :=
    WDec.fieldStructs (WritableTxnMarkerResult27.decodeW version {}) (·.Markers) (fun t x => { t with Markers := x })
theorem WriteTxnMarkersResponse.erasesW (version : Int16) (t : WriteTxnMarkersResponse) : Erases (WriteTxnMarkersResponse.decodeW version t) (WriteTxnMarkersResponse.decode version t) :=
  (ErasesStep.structsW (WritableTxnMarkerResult27.erasesW version {}) : ErasesStep _ _) t
theorem WriteTxnMarkersResponse.spends (version : Int16) (t : WriteTxnMarkersResponse) : Spends (WriteTxnMarkersResponse.decodeW version t) 7 1 :=
  ((SpendsStep.structs ((WritableTxnMarkerResult27.spends version {}).mono (by decide) (Nat.le_refl _)) : SpendsStep _ _) t).mono (by decide) (by decide)
theorem WriteTxnMarkersResponse.spends0 (version : Int16) (t : WriteTxnMarkersResponse) : Spends (WriteTxnMarkersResponse.decodeW version t) 0 1 :=
  (WriteTxnMarkersResponse.spends version t).mono (Nat.zero_le _) (Nat.le_refl _)

/-- The structures of the WriteTxnMarkers messages. -/
def workWriteTxnMarkers : List (Σ M : MsgType, Int16 → M.T → ADec M.T) :=
  [⟨WriteTxnMarkersRequest.type, WriteTxnMarkersRequest.decodeW⟩,
   ⟨WritableTxnMarker27.type, WritableTxnMarker27.decodeW⟩,
   ⟨WritableTxnMarkerTopic27.type, WritableTxnMarkerTopic27.decodeW⟩,
   ⟨WriteTxnMarkersResponse.type, WriteTxnMarkersResponse.decodeW⟩,
   ⟨WritableTxnMarkerResult27.type, WritableTxnMarkerResult27.decodeW⟩,
   ⟨WritableTxnMarkerTopicResult27.type, WritableTxnMarkerTopicResult27.decodeW⟩,
   ⟨WritableTxnMarkerPartitionResult27.type, WritableTxnMarkerPartitionResult27.decodeW⟩]
theorem workWriteTxnMarkers_erases : ∀ p ∈ workWriteTxnMarkers, ∀ v t, Erases (p.2 v t) (p.1.decode v t) := by
  unfold workWriteTxnMarkers
  simp only [List.forall_mem_cons]
  exact ⟨WriteTxnMarkersRequest.erasesW, WritableTxnMarker27.erasesW, WritableTxnMarkerTopic27.erasesW, WriteTxnMarkersResponse.erasesW, WritableTxnMarkerResult27.erasesW, WritableTxnMarkerTopicResult27.erasesW, WritableTxnMarkerPartitionResult27.erasesW, fun _ h => absurd h (by simp)⟩
theorem workWriteTxnMarkers_spends : ∀ p ∈ workWriteTxnMarkers, ∀ v t, Spends (p.2 v t) 0 1 := by
  unfold workWriteTxnMarkers
  simp only [List.forall_mem_cons]
  exact ⟨WriteTxnMarkersRequest.spends0, WritableTxnMarker27.spends0, WritableTxnMarkerTopic27.spends0, WriteTxnMarkersResponse.spends0, WritableTxnMarkerResult27.spends0, WritableTxnMarkerTopicResult27.spends0, WritableTxnMarkerPartitionResult27.spends0, fun _ h => absurd h (by simp)⟩

end Kafka.Msg
