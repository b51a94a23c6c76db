import Verif.Message.Work
import Verif.Gen.Model.Produce
/-!
Generated by tools/gen_messages.py: steps taken by decoding the Produce messages.
-/
namespace Kafka.Msg

/-- message/messages.gen.go:164-175 `PartitionProduceData0.Decode`, with the steps it takes -/
def PartitionProduceData0.decodeW (_version : Int16) : PartitionProduceData0 → ADec PartitionProduceData0 :=
    ADec.field WDec.int32 (fun t x => { t with PartitionIndex := x }) ;>>
    ADec.field WDec.bytes (fun t x => { t with Records := x })
theorem PartitionProduceData0.erasesW (version : Int16) (t : PartitionProduceData0) : Erases (PartitionProduceData0.decodeW version t) (PartitionProduceData0.decode version t) :=
  ((ErasesStep.field (.read _))
    |>.andThen (ErasesStep.field (.read _)) : ErasesStep _ _) t
theorem PartitionProduceData0.spends (version : Int16) (t : PartitionProduceData0) : Spends (PartitionProduceData0.decodeW version t) 14 1 :=
  (((SpendsStep.field .int32)
    |>.andThen (SpendsStep.field .bytes) : SpendsStep _ _) t).mono (by decide) (by decide)
theorem PartitionProduceData0.spends0 (version : Int16) (t : PartitionProduceData0) : Spends (PartitionProduceData0.decodeW version t) 0 1 :=
  (PartitionProduceData0.spends version t).mono (Nat.zero_le _) (Nat.le_refl _)

/-- message/messages.gen.go:122-142 `TopicProduceData0.Decode`, with the steps it takes -/
def TopicProduceData0.decodeW (version : Int16) : TopicProduceData0 → ADec TopicProduceData0 :=
    ADec.field WDec.string (fun t x => { t with Name := x }) ;>>
    WDec.fieldStructs (PartitionProduceData0.decodeW version {}) (·.Partitions) (fun t x => { t with Partitions := x })
theorem TopicProduceData0.erasesW (version : Int16) (t : TopicProduceData0) : Erases (TopicProduceData0.decodeW version t) (TopicProduceData0.decode version t) :=
  ((ErasesStep.field .stringW)
    |>.andThen (ErasesStep.structsW (PartitionProduceData0.erasesW version {})) : ErasesStep _ _) t
theorem TopicProduceData0.spends (version : Int16) (t : TopicProduceData0) : Spends (TopicProduceData0.decodeW version t) 10 1 :=
  (((SpendsStep.field .string)
    |>.andThen (SpendsStep.structs ((PartitionProduceData0.spends version {}).mono (by decide) (Nat.le_refl _))) : SpendsStep _ _) t).mono (by decide) (by decide)
theorem TopicProduceData0.spends0 (version : Int16) (t : TopicProduceData0) : Spends (TopicProduceData0.decodeW version t) 0 1 :=
  (TopicProduceData0.spends version t).mono (Nat.zero_le _) (Nat.le_refl _)

/-- message/messages.gen.go:62-92 `ProduceRequest.Decode`, with the steps it takes -/
def ProduceRequest.decodeW (version : Int16) : ProduceRequest → ADec ProduceRequest :=
    ADec.onlyIf (version ≥ 3) (ADec.field WDec.string (fun t x => { t with TransactionalId := x })) ;>>
    ADec.field WDec.int16 (fun t x => { t with Acks := x }) ;>>
    ADec.field WDec.int32 (fun t x => { t with TimeoutMs := x }) ;>>
    WDec.fieldStructs (TopicProduceData0.decodeW version {}) (·.Topics) (fun t x => { t with Topics := x })
theorem ProduceRequest.erasesW (version : Int16) (t : ProduceRequest) : Erases (ProduceRequest.decodeW version t) (ProduceRequest.decode version t) :=
  ((ErasesStep.onlyIf (ErasesStep.field .stringW))
    |>.andThen (ErasesStep.field (.read _))
    |>.andThen (ErasesStep.field (.read _))
    |>.andThen (ErasesStep.structsW (TopicProduceData0.erasesW version {})) : ErasesStep _ _) t
theorem ProduceRequest.spends (version : Int16) (t : ProduceRequest) : Spends (ProduceRequest.decodeW version t) 17 1 :=
  (((SpendsStep.onlyIf (fun _ => SpendsStep.field .string))
    |>.andThen (SpendsStep.field .int16)
    |>.andThen (SpendsStep.field .int32)
    |>.andThen (SpendsStep.structs ((TopicProduceData0.spends version {}).mono (by decide) (Nat.le_refl _))) : SpendsStep _ _) t).mono (by decide) (by decide)
theorem ProduceRequest.spends0 (version : Int16) (t : ProduceRequest) : Spends (ProduceRequest.decodeW version t) 0 1 :=
  (ProduceRequest.spends version t).mono (Nat.zero_le _) (Nat.le_refl _)

/-- message/messages.gen.go:421-436 `BatchIndexAndErrorMessage0.Decode`, with the steps it takes -/
def BatchIndexAndErrorMessage0.decodeW (version : Int16) : BatchIndexAndErrorMessage0 → ADec BatchIndexAndErrorMessage0 :=
    ADec.onlyIf (version ≥ 8) (ADec.field WDec.int32 (fun t x => { t with BatchIndex := x })) ;>>
    ADec.onlyIf (version ≥ 8) (ADec.field WDec.string (fun t x => { t with BatchIndexErrorMessage := x }))
theorem BatchIndexAndErrorMessage0.erasesW (version : Int16) (t : BatchIndexAndErrorMessage0) : Erases (BatchIndexAndErrorMessage0.decodeW version t) (BatchIndexAndErrorMessage0.decode version t) :=
  ((ErasesStep.onlyIf (ErasesStep.field (.read _)))
    |>.andThen (ErasesStep.onlyIf (ErasesStep.field .stringW)) : ErasesStep _ _) t
theorem BatchIndexAndErrorMessage0.spends (version : Int16) (t : BatchIndexAndErrorMessage0) (h : version ≥ 8) : Spends (BatchIndexAndErrorMessage0.decodeW version t) 7 1 :=
  (((SpendsStep.present h (SpendsStep.field .int32))
    |>.andThen (SpendsStep.onlyIf (fun _ => SpendsStep.field .string)) : SpendsStep _ _) t).mono (by decide) (by decide)
theorem BatchIndexAndErrorMessage0.spends0 (version : Int16) (t : BatchIndexAndErrorMessage0) : Spends (BatchIndexAndErrorMessage0.decodeW version t) 0 1 :=
  (((SpendsStep.onlyIf (fun _ => SpendsStep.field .int32))
    |>.andThen (SpendsStep.onlyIf (fun _ => SpendsStep.field .string)) : SpendsStep _ _) t).mono (by decide) (by decide)

/-- message/messages.gen.go:343-391 `PartitionProduceResponse0.Decode`, with the steps it takes -/
def PartitionProduceResponse0.decodeW (version : Int16) : PartitionProduceResponse0 → ADec PartitionProduceResponse0 :=
    ADec.field WDec.int32 (fun t x => { t with PartitionIndex := x }) ;>>
    ADec.field WDec.int16 (fun t x => { t with ErrorCode := x }) ;>>
    ADec.field WDec.int64 (fun t x => { t with BaseOffset := x }) ;>>
    ADec.onlyIf (version ≥ 2) (ADec.field WDec.int64 (fun t x => { t with LogAppendTimeMs := x })) ;>>
    ADec.onlyIf (version ≥ 5) (ADec.field WDec.int64 (fun t x => { t with LogStartOffset := x })) ;>>
    ADec.onlyIf (version ≥ 8) (WDec.fieldStructs (BatchIndexAndErrorMessage0.decodeW version {}) (·.RecordErrors) (fun t x => { t with RecordErrors := x })) ;>>
    ADec.onlyIf (version ≥ 8) (ADec.field WDec.string (fun t x => { t with ErrorMessage := x }))
theorem PartitionProduceResponse0.erasesW (version : Int16) (t : PartitionProduceResponse0) : Erases (PartitionProduceResponse0.decodeW version t) (PartitionProduceResponse0.decode version t) :=
  ((ErasesStep.field (.read _))
    |>.andThen (ErasesStep.field (.read _))
    |>.andThen (ErasesStep.field (.read _))
    |>.andThen (ErasesStep.onlyIf (ErasesStep.field (.read _)))
    |>.andThen (ErasesStep.onlyIf (ErasesStep.field (.read _)))
    |>.andThen (ErasesStep.onlyIf (ErasesStep.structsW (BatchIndexAndErrorMessage0.erasesW version {})))
    |>.andThen (ErasesStep.onlyIf (ErasesStep.field .stringW)) : ErasesStep _ _) t
theorem PartitionProduceResponse0.spends (version : Int16) (t : PartitionProduceResponse0) : Spends (PartitionProduceResponse0.decodeW version t) 25 1 :=
  (((SpendsStep.field .int32)
    |>.andThen (SpendsStep.field .int16)
    |>.andThen (SpendsStep.field .int64)
    |>.andThen (SpendsStep.onlyIf (fun _ => SpendsStep.field .int64))
    |>.andThen (SpendsStep.onlyIf (fun _ => SpendsStep.field .int64))
    |>.andThen (SpendsStep.onlyIf (fun h => SpendsStep.structs ((BatchIndexAndErrorMessage0.spends version {} h).mono (by decide) (Nat.le_refl _))))
    |>.andThen (SpendsStep.onlyIf (fun _ => SpendsStep.field .string)) : SpendsStep _ _) t).mono (by decide) (by decide)
theorem PartitionProduceResponse0.spends0 (version : Int16) (t : PartitionProduceResponse0) : Spends (PartitionProduceResponse0.decodeW version t) 0 1 :=
  (PartitionProduceResponse0.spends version t).mono (Nat.zero_le _) (Nat.le_refl _)

/-- message/messages.gen.go:262-282 `TopicProduceResponse0.Decode`, with the steps it takes -/
def TopicProduceResponse0.decodeW (version : Int16) : TopicProduceResponse0 → ADec TopicProduceResponse0 :=
    ADec.field WDec.string (fun t x => { t with Name := x }) ;>>
    WDec.fieldStructs (PartitionProduceResponse0.decodeW version {}) (·.Partitions) (fun t x => { t with Partitions := x })
theorem TopicProduceResponse0.erasesW (version : Int16) (t : TopicProduceResponse0) : Erases (TopicProduceResponse0.decodeW version t) (TopicProduceResponse0.decode version t) :=
  ((ErasesStep.field .stringW)
    |>.andThen (ErasesStep.structsW (PartitionProduceResponse0.erasesW version {})) : ErasesStep _ _) t
theorem TopicProduceResponse0.spends (version : Int16) (t : TopicProduceResponse0) : Spends (TopicProduceResponse0.decodeW version t) 10 1 :=
  (((SpendsStep.field .string)
    |>.andThen (SpendsStep.structs ((PartitionProduceResponse0.spends version {}).mono (by decide) (Nat.le_refl _))) : SpendsStep _ _) t).mono (by decide) (by decide)
theorem TopicProduceResponse0.spends0 (version : Int16) (t : TopicProduceResponse0) : Spends (TopicProduceResponse0.decodeW version t) 0 1 :=
  (TopicProduceResponse0.spends version t).mono (Nat.zero_le _) (Nat.le_refl _)

/-- message/messages.gen.go:210-232 `ProduceResponse.Decode`, with the steps it takes -/
def ProduceResponse.decodeW (version : Int16) : ProduceResponse → ADec ProduceResponse :=
    WDec.fieldStructs (TopicProduceResponse0.decodeW version {}) (·.Responses) (fun t x => { t with Responses := x }) ;>>
    ADec.onlyIf (version ≥ 1) (ADec.field WDec.int32 (fun t x => { t with ThrottleTimeMs := x }))
theorem ProduceResponse.erasesW (version : Int16) (t : ProduceResponse) : Erases (ProduceResponse.decodeW version t) (ProduceResponse.decode version t) :=
  ((ErasesStep.structsW (TopicProduceResponse0.erasesW version {}))
    |>.andThen (ErasesStep.onlyIf (ErasesStep.field (.read _))) : ErasesStep _ _) t
theorem ProduceResponse.spends (version : Int16) (t : ProduceResponse) : Spends (ProduceResponse.decodeW version t) 7 1 :=
  (((SpendsStep.structs ((TopicProduceResponse0.spends version {}).mono (by decide) (Nat.le_refl _)))
    |>.andThen (SpendsStep.onlyIf (fun _ => SpendsStep.field .int32)) : SpendsStep _ _) t).mono (by decide) (by decide)
theorem ProduceResponse.spends0 (version : Int16) (t : ProduceResponse) : Spends (ProduceResponse.decodeW version t) 0 1 :=
  (ProduceResponse.spends version t).mono (Nat.zero_le _) (Nat.le_refl _)

/-- The structures of the Produce messages. -/
def workProduce : List (Σ M : MsgType, Int16 → M.T → ADec M.T) :=
  [⟨ProduceRequest.type, ProduceRequest.decodeW⟩,
   ⟨TopicProduceData0.type, TopicProduceData0.decodeW⟩,
   ⟨PartitionProduceData0.type, PartitionProduceData0.decodeW⟩,
   ⟨ProduceResponse.type, ProduceResponse.decodeW⟩,
   ⟨TopicProduceResponse0.type, TopicProduceResponse0.decodeW⟩,
   ⟨PartitionProduceResponse0.type, PartitionProduceResponse0.decodeW⟩,
   ⟨BatchIndexAndErrorMessage0.type, BatchIndexAndErrorMessage0.decodeW⟩]
theorem workProduce_erases : ∀ p ∈ workProduce, ∀ v t, Erases (p.2 v t) (p.1.decode v t) := by
  unfold workProduce
  simp only [List.forall_mem_cons]
  exact ⟨ProduceRequest.erasesW, TopicProduceData0.erasesW, PartitionProduceData0.erasesW, ProduceResponse.erasesW, TopicProduceResponse0.erasesW, PartitionProduceResponse0.erasesW, BatchIndexAndErrorMessage0.erasesW, fun _ h => absurd h (by simp)⟩
theorem workProduce_spends : ∀ p ∈ workProduce, ∀ v t, Spends (p.2 v t) 0 1 := by
  unfold workProduce
  simp only [List.forall_mem_cons]
  exact ⟨ProduceRequest.spends0, TopicProduceData0.spends0, PartitionProduceData0.spends0, ProduceResponse.spends0, TopicProduceResponse0.spends0, PartitionProduceResponse0.spends0, BatchIndexAndErrorMessage0.spends0, fun _ h => absurd h (by simp)⟩

end Kafka.Msg
