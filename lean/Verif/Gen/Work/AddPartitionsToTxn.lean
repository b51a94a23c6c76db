import Verif.Message.Work
import Verif.Gen.Model.AddPartitionsToTxn
/-!
Generated by tools/gen_messages.py: steps taken by decoding the AddPartitionsToTxn messages.
-/
namespace Kafka.Msg

/-- message/messages.gen.go:6711-6722 `AddPartitionsToTxnTopic24.Decode`, with the steps it takes -/
def AddPartitionsToTxnTopic24.decodeW (_version : Int16) : AddPartitionsToTxnTopic24 → ADec AddPartitionsToTxnTopic24 :=
    ADec.field WDec.string (fun t x => { t with Name := x }) ;>>
    ADec.field WDec.int32Array (fun t x => { t with Partitions := x })
theorem AddPartitionsToTxnTopic24.erasesW (version : Int16) (t : AddPartitionsToTxnTopic24) : Erases (AddPartitionsToTxnTopic24.decodeW version t) (AddPartitionsToTxnTopic24.decode version t) :=
  ((ErasesStep.field .stringW)
    |>.andThen (ErasesStep.field (.arrayOfW (.read _))) : ErasesStep _ _) t
theorem AddPartitionsToTxnTopic24.spends (version : Int16) (t : AddPartitionsToTxnTopic24) : Spends (AddPartitionsToTxnTopic24.decodeW version t) 10 1 :=
  (((SpendsStep.field .string)
    |>.andThen (SpendsStep.field .int32Array) : SpendsStep _ _) t).mono (by decide) (by decide)
theorem AddPartitionsToTxnTopic24.spends0 (version : Int16) (t : AddPartitionsToTxnTopic24) : Spends (AddPartitionsToTxnTopic24.decodeW version t) 0 1 :=
  (AddPartitionsToTxnTopic24.spends version t).mono (Nat.zero_le _) (Nat.le_refl _)

/-- message/messages.gen.go:6661-6689 `AddPartitionsToTxnRequest.Decode`, with the steps it takes -/
def AddPartitionsToTxnRequest.decodeW (version : Int16) : AddPartitionsToTxnRequest → ADec AddPartitionsToTxnRequest :=
    ADec.field WDec.string (fun t x => { t with TransactionalId := x }) ;>>
    ADec.field WDec.int64 (fun t x => { t with ProducerId := x }) ;>>
    ADec.field WDec.int16 (fun t x => { t with ProducerEpoch := x }) ;>>
    WDec.fieldStructs (AddPartitionsToTxnTopic24.decodeW version {}) (·.Topics) (fun t x => { t with Topics := x })
theorem AddPartitionsToTxnRequest.erasesW (version : Int16) (t : AddPartitionsToTxnRequest) : Erases (AddPartitionsToTxnRequest.decodeW version t) (AddPartitionsToTxnRequest.decode version t) :=
  ((ErasesStep.field .stringW)
    |>.andThen (ErasesStep.field (.read _))
    |>.andThen (ErasesStep.field (.read _))
    |>.andThen (ErasesStep.structsW (AddPartitionsToTxnTopic24.erasesW version {})) : ErasesStep _ _) t
theorem AddPartitionsToTxnRequest.spends (version : Int16) (t : AddPartitionsToTxnRequest) : Spends (AddPartitionsToTxnRequest.decodeW version t) 28 1 :=
  (((SpendsStep.field .string)
    |>.andThen (SpendsStep.field .int64)
    |>.andThen (SpendsStep.field .int16)
    |>.andThen (SpendsStep.structs ((AddPartitionsToTxnTopic24.spends version {}).mono (by decide) (Nat.le_refl _))) : SpendsStep _ _) t).mono (by decide) (by decide)
theorem AddPartitionsToTxnRequest.spends0 (version : Int16) (t : AddPartitionsToTxnRequest) : Spends (AddPartitionsToTxnRequest.decodeW version t) 0 1 :=
  (AddPartitionsToTxnRequest.spends version t).mono (Nat.zero_le _) (Nat.le_refl _)

/-- message/messages.gen.go:6845-6856 `AddPartitionsToTxnPartitionResult24.Decode`, with the steps it takes -/
def AddPartitionsToTxnPartitionResult24.decodeW (_version : Int16) : AddPartitionsToTxnPartitionResult24 → ADec AddPartitionsToTxnPartitionResult24 :=
    ADec.field WDec.int32 (fun t x => { t with PartitionIndex := x }) ;>>
    ADec.field WDec.int16 (fun t x => { t with ErrorCode := x })
theorem AddPartitionsToTxnPartitionResult24.erasesW (version : Int16) (t : AddPartitionsToTxnPartitionResult24) : Erases (AddPartitionsToTxnPartitionResult24.decodeW version t) (AddPartitionsToTxnPartitionResult24.decode version t) :=
  ((ErasesStep.field (.read _))
    |>.andThen (ErasesStep.field (.read _)) : ErasesStep _ _) t
theorem AddPartitionsToTxnPartitionResult24.spends (version : Int16) (t : AddPartitionsToTxnPartitionResult24) : Spends (AddPartitionsToTxnPartitionResult24.decodeW version t) 10 1 :=
  (((SpendsStep.field .int32)
    |>.andThen (SpendsStep.field .int16) : SpendsStep _ _) t).mono (by decide) (by decide)
theorem AddPartitionsToTxnPartitionResult24.spends0 (version : Int16) (t : AddPartitionsToTxnPartitionResult24) : Spends (AddPartitionsToTxnPartitionResult24.decodeW version t) 0 1 :=
  (AddPartitionsToTxnPartitionResult24.spends version t).mono (Nat.zero_le _) (Nat.le_refl _)

/-- message/messages.gen.go:6803-6823 `AddPartitionsToTxnTopicResult24.Decode`, with the steps it takes -/
def AddPartitionsToTxnTopicResult24.decodeW (version : Int16) : AddPartitionsToTxnTopicResult24 → ADec AddPartitionsToTxnTopicResult24 :=
    ADec.field WDec.string (fun t x => { t with Name := x }) ;>>
    WDec.fieldStructs (AddPartitionsToTxnPartitionResult24.decodeW version {}) (·.Results) (fun t x => { t with Results := x })
theorem AddPartitionsToTxnTopicResult24.erasesW (version : Int16) (t : AddPartitionsToTxnTopicResult24) : Erases (AddPartitionsToTxnTopicResult24.decodeW version t) (AddPartitionsToTxnTopicResult24.decode version t) :=
  ((ErasesStep.field .stringW)
    |>.andThen (ErasesStep.structsW (AddPartitionsToTxnPartitionResult24.erasesW version {})) : ErasesStep _ _) t
theorem AddPartitionsToTxnTopicResult24.spends (version : Int16) (t : AddPartitionsToTxnTopicResult24) : Spends (AddPartitionsToTxnTopicResult24.decodeW version t) 10 1 :=
  (((SpendsStep.field .string)
    |>.andThen (SpendsStep.structs ((AddPartitionsToTxnPartitionResult24.spends version {}).mono (by decide) (Nat.le_refl _))) : SpendsStep _ _) t).mono (by decide) (by decide)
theorem AddPartitionsToTxnTopicResult24.spends0 (version : Int16) (t : AddPartitionsToTxnTopicResult24) : Spends (AddPartitionsToTxnTopicResult24.decodeW version t) 0 1 :=
  (AddPartitionsToTxnTopicResult24.spends version t).mono (Nat.zero_le _) (Nat.le_refl _)

/-- message/messages.gen.go:6753-6773 `AddPartitionsToTxnResponse.Decode`, with the steps it takes -/
def AddPartitionsToTxnResponse.decodeW (version : Int16) : AddPartitionsToTxnResponse → ADec AddPartitionsToTxnResponse :=
    ADec.field WDec.int32 (fun t x => { t with ThrottleTimeMs := x }) ;>>
    WDec.fieldStructs (AddPartitionsToTxnTopicResult24.decodeW version {}) (·.Results) (fun t x => { t with Results := x })
theorem AddPartitionsToTxnResponse.erasesW (version : Int16) (t : AddPartitionsToTxnResponse) : Erases (AddPartitionsToTxnResponse.decodeW version t) (AddPartitionsToTxnResponse.decode version t) :=
  ((ErasesStep.field (.read _))
    |>.andThen (ErasesStep.structsW (AddPartitionsToTxnTopicResult24.erasesW version {})) : ErasesStep _ _) t
theorem AddPartitionsToTxnResponse.spends (version : Int16) (t : AddPartitionsToTxnResponse) : Spends (AddPartitionsToTxnResponse.decodeW version t) 14 1 :=
  (((SpendsStep.field .int32)
    |>.andThen (SpendsStep.structs ((AddPartitionsToTxnTopicResult24.spends version {}).mono (by decide) (Nat.le_refl _))) : SpendsStep _ _) t).mono (by decide) (by decide)
theorem AddPartitionsToTxnResponse.spends0 (version : Int16) (t : AddPartitionsToTxnResponse) : Spends (AddPartitionsToTxnResponse.decodeW version t) 0 1 :=
  (AddPartitionsToTxnResponse.spends version t).mono (Nat.zero_le _) (Nat.le_refl _)

/-- The structures of the AddPartitionsToTxn messages. -/
def workAddPartitionsToTxn : List (Σ M : MsgType, Int16 → M.T → ADec M.T) :=
  [⟨AddPartitionsToTxnRequest.type, AddPartitionsToTxnRequest.decodeW⟩,
   ⟨AddPartitionsToTxnTopic24.type, AddPartitionsToTxnTopic24.decodeW⟩,
   ⟨AddPartitionsToTxnResponse.type, AddPartitionsToTxnResponse.decodeW⟩,
   ⟨AddPartitionsToTxnTopicResult24.type, AddPartitionsToTxnTopicResult24.decodeW⟩,
   ⟨AddPartitionsToTxnPartitionResult24.type, AddPartitionsToTxnPartitionResult24.decodeW⟩]
theorem workAddPartitionsToTxn_erases : ∀ p ∈ workAddPartitionsToTxn, ∀ v t, Erases (p.2 v t) (p.1.decode v t) := by
  unfold workAddPartitionsToTxn
  simp only [List.forall_mem_cons]
  exact ⟨AddPartitionsToTxnRequest.erasesW, AddPartitionsToTxnTopic24.erasesW, AddPartitionsToTxnResponse.erasesW, AddPartitionsToTxnTopicResult24.erasesW, AddPartitionsToTxnPartitionResult24.erasesW, fun _ h => absurd h (by simp)⟩
theorem workAddPartitionsToTxn_spends : ∀ p ∈ workAddPartitionsToTxn, ∀ v t, Spends (p.2 v t) 0 1 := by
  unfold workAddPartitionsToTxn
  simp only [List.forall_mem_cons]
  exact ⟨AddPartitionsToTxnRequest.spends0, AddPartitionsToTxnTopic24.spends0, AddPartitionsToTxnResponse.spends0, AddPartitionsToTxnTopicResult24.spends0, AddPartitionsToTxnPartitionResult24.spends0, fun _ h => absurd h (by simp)⟩

end Kafka.Msg
