import Verif.Message.Work
import Verif.Gen.Model.DeleteRecords
/-!
Generated by tools/gen_messages.py: steps taken by decoding the DeleteRecords messages.
-/
namespace Kafka.Msg

/-- message/messages.gen.go:6077-6088 `DeleteRecordsPartition21.Decode`, with the steps it takes -/
def DeleteRecordsPartition21.decodeW (_version : Int16) : DeleteRecordsPartition21 → ADec DeleteRecordsPartition21 :=
    ADec.field WDec.int32 (fun t x => { t with PartitionIndex := x }) ;>>
    ADec.field WDec.int64 (fun t x => { t with Offset := x })
theorem DeleteRecordsPartition21.erasesW (version : Int16) (t : DeleteRecordsPartition21) : Erases (DeleteRecordsPartition21.decodeW version t) (DeleteRecordsPartition21.decode version t) :=
  ((ErasesStep.field (.read _))
    |>.andThen (ErasesStep.field (.read _)) : ErasesStep _ _) t
theorem DeleteRecordsPartition21.spends (version : Int16) (t : DeleteRecordsPartition21) : Spends (DeleteRecordsPartition21.decodeW version t) 22 1 :=
  (((SpendsStep.field .int32)
    |>.andThen (SpendsStep.field .int64) : SpendsStep _ _) t).mono (by decide) (by decide)
theorem DeleteRecordsPartition21.spends0 (version : Int16) (t : DeleteRecordsPartition21) : Spends (DeleteRecordsPartition21.decodeW version t) 0 1 :=
  (DeleteRecordsPartition21.spends version t).mono (Nat.zero_le _) (Nat.le_refl _)

/-- message/messages.gen.go:6035-6055 `DeleteRecordsTopic21.Decode`, with the steps it takes -/
def DeleteRecordsTopic21.decodeW (version : Int16) : DeleteRecordsTopic21 → ADec DeleteRecordsTopic21 :=
    ADec.field WDec.string (fun t x => { t with Name := x }) ;>>
    WDec.fieldStructs (DeleteRecordsPartition21.decodeW version {}) (·.Partitions) (fun t x => { t with Partitions := x })
theorem DeleteRecordsTopic21.erasesW (version : Int16) (t : DeleteRecordsTopic21) : Erases (DeleteRecordsTopic21.decodeW version t) (DeleteRecordsTopic21.decode version t) :=
  ((ErasesStep.field .stringW)
    |>.andThen (ErasesStep.structsW (DeleteRecordsPartition21.erasesW version {})) : ErasesStep _ _) t
theorem DeleteRecordsTopic21.spends (version : Int16) (t : DeleteRecordsTopic21) : Spends (DeleteRecordsTopic21.decodeW version t) 10 1 :=
  (((SpendsStep.field .string)
    |>.andThen (SpendsStep.structs ((DeleteRecordsPartition21.spends version {}).mono (by decide) (Nat.le_refl _))) : SpendsStep _ _) t).mono (by decide) (by decide)
theorem DeleteRecordsTopic21.spends0 (version : Int16) (t : DeleteRecordsTopic21) : Spends (DeleteRecordsTopic21.decodeW version t) 0 1 :=
  (DeleteRecordsTopic21.spends version t).mono (Nat.zero_le _) (Nat.le_refl _)

/-- message/messages.gen.go:5985-6005 `DeleteRecordsRequest.Decode`, with the steps it takes -/
def DeleteRecordsRequest.decodeW (version : Int16) : DeleteRecordsRequest → ADec DeleteRecordsRequest :=
    WDec.fieldStructs (DeleteRecordsTopic21.decodeW version {}) (·.Topics) (fun t x => { t with Topics := x }) ;>>
    ADec.field WDec.int32 (fun t x => { t with TimeoutMs := x })
theorem DeleteRecordsRequest.erasesW (version : Int16) (t : DeleteRecordsRequest) : Erases (DeleteRecordsRequest.decodeW version t) (DeleteRecordsRequest.decode version t) :=
  ((ErasesStep.structsW (DeleteRecordsTopic21.erasesW version {}))
    |>.andThen (ErasesStep.field (.read _)) : ErasesStep _ _) t
theorem DeleteRecordsRequest.spends (version : Int16) (t : DeleteRecordsRequest) : Spends (DeleteRecordsRequest.decodeW version t) 14 1 :=
  (((SpendsStep.structs ((DeleteRecordsTopic21.spends version {}).mono (by decide) (Nat.le_refl _)))
    |>.andThen (SpendsStep.field .int32) : SpendsStep _ _) t).mono (by decide) (by decide)
theorem DeleteRecordsRequest.spends0 (version : Int16) (t : DeleteRecordsRequest) : Spends (DeleteRecordsRequest.decodeW version t) 0 1 :=
  (DeleteRecordsRequest.spends version t).mono (Nat.zero_le _) (Nat.le_refl _)

/-- message/messages.gen.go:6214-6229 `DeleteRecordsPartitionResult21.Decode`, with the steps it takes -/
def DeleteRecordsPartitionResult21.decodeW (_version : Int16) : DeleteRecordsPartitionResult21 → ADec DeleteRecordsPartitionResult21 :=
    ADec.field WDec.int32 (fun t x => { t with PartitionIndex := x }) ;>>
    ADec.field WDec.int64 (fun t x => { t with LowWatermark := x }) ;>>
    ADec.field WDec.int16 (fun t x => { t with ErrorCode := x })
theorem DeleteRecordsPartitionResult21.erasesW (version : Int16) (t : DeleteRecordsPartitionResult21) : Erases (DeleteRecordsPartitionResult21.decodeW version t) (DeleteRecordsPartitionResult21.decode version t) :=
  ((ErasesStep.field (.read _))
    |>.andThen (ErasesStep.field (.read _))
    |>.andThen (ErasesStep.field (.read _)) : ErasesStep _ _) t
theorem DeleteRecordsPartitionResult21.spends (version : Int16) (t : DeleteRecordsPartitionResult21) : Spends (DeleteRecordsPartitionResult21.decodeW version t) 25 1 :=
  (((SpendsStep.field .int32)
    |>.andThen (SpendsStep.field .int64)
    |>.andThen (SpendsStep.field .int16) : SpendsStep _ _) t).mono (by decide) (by decide)
theorem DeleteRecordsPartitionResult21.spends0 (version : Int16) (t : DeleteRecordsPartitionResult21) : Spends (DeleteRecordsPartitionResult21.decodeW version t) 0 1 :=
  (DeleteRecordsPartitionResult21.spends version t).mono (Nat.zero_le _) (Nat.le_refl _)

/-- message/messages.gen.go:6169-6189 `DeleteRecordsTopicResult21.Decode`, with the steps it takes -/
def DeleteRecordsTopicResult21.decodeW (version : Int16) : DeleteRecordsTopicResult21 → ADec DeleteRecordsTopicResult21 :=
    ADec.field WDec.string (fun t x => { t with Name := x }) ;>>
    WDec.fieldStructs (DeleteRecordsPartitionResult21.decodeW version {}) (·.Partitions) (fun t x => { t with Partitions := x })
theorem DeleteRecordsTopicResult21.erasesW (version : Int16) (t : DeleteRecordsTopicResult21) : Erases (DeleteRecordsTopicResult21.decodeW version t) (DeleteRecordsTopicResult21.decode version t) :=
  ((ErasesStep.field .stringW)
    |>.andThen (ErasesStep.structsW (DeleteRecordsPartitionResult21.erasesW version {})) : ErasesStep _ _) t
theorem DeleteRecordsTopicResult21.spends (version : Int16) (t : DeleteRecordsTopicResult21) : Spends (DeleteRecordsTopicResult21.decodeW version t) 10 1 :=
  (((SpendsStep.field .string)
    |>.andThen (SpendsStep.structs ((DeleteRecordsPartitionResult21.spends version {}).mono (by decide) (Nat.le_refl _))) : SpendsStep _ _) t).mono (by decide) (by decide)
theorem DeleteRecordsTopicResult21.spends0 (version : Int16) (t : DeleteRecordsTopicResult21) : Spends (DeleteRecordsTopicResult21.decodeW version t) 0 1 :=
  (DeleteRecordsTopicResult21.spends version t).mono (Nat.zero_le _) (Nat.le_refl _)

/-- message/messages.gen.go:6119-6139 `DeleteRecordsResponse.Decode`, with the steps it takes -/
def DeleteRecordsResponse.decodeW (version : Int16) : DeleteRecordsResponse → ADec DeleteRecordsResponse :=
    ADec.field WDec.int32 (fun t x => { t with ThrottleTimeMs := x }) ;>>
    WDec.fieldStructs (DeleteRecordsTopicResult21.decodeW version {}) (·.Topics) (fun t x => { t with Topics := x })
theorem DeleteRecordsResponse.erasesW (version : Int16) (t : DeleteRecordsResponse) : Erases (DeleteRecordsResponse.decodeW version t) (DeleteRecordsResponse.decode version t) :=
  ((ErasesStep.field (.read _))
    |>.andThen (ErasesStep.structsW (DeleteRecordsTopicResult21.erasesW version {})) : ErasesStep _ _) t
theorem DeleteRecordsResponse.spends (version : Int16) (t : DeleteRecordsResponse) : Spends (DeleteRecordsResponse.decodeW version t) 14 1 :=
  (((SpendsStep.field .int32)
    |>.andThen (SpendsStep.structs ((DeleteRecordsTopicResult21.spends version {}).mono (by decide) (Nat.le_refl _))) : SpendsStep _ _) t).mono (by decide) (by decide)
theorem DeleteRecordsResponse.spends0 (version : Int16) (t : DeleteRecordsResponse) : Spends (DeleteRecordsResponse.decodeW version t) 0 1 :=
  (DeleteRecordsResponse.spends version t).mono (Nat.zero_le _) (Nat.le_refl _)

/-- The structures of the DeleteRecords messages. -/
def workDeleteRecords : List (Σ M : MsgType, Int16 → M.T → ADec M.T) :=
  [⟨DeleteRecordsRequest.type, DeleteRecordsRequest.decodeW⟩,
   ⟨DeleteRecordsTopic21.type, DeleteRecordsTopic21.decodeW⟩,
   ⟨DeleteRecordsPartition21.type, DeleteRecordsPartition21.decodeW⟩,
   ⟨DeleteRecordsResponse.type, DeleteRecordsResponse.decodeW⟩,
   ⟨DeleteRecordsTopicResult21.type, DeleteRecordsTopicResult21.decodeW⟩,
   ⟨DeleteRecordsPartitionResult21.type, DeleteRecordsPartitionResult21.decodeW⟩]
theorem workDeleteRecords_erases : ∀ p ∈ workDeleteRecords, ∀ v t, Erases (p.2 v t) (p.1.decode v t) := by
  unfold workDeleteRecords
  simp only [List.forall_mem_cons]
  exact ⟨DeleteRecordsRequest.erasesW, DeleteRecordsTopic21.erasesW, DeleteRecordsPartition21.erasesW, DeleteRecordsResponse.erasesW, DeleteRecordsTopicResult21.erasesW, DeleteRecordsPartitionResult21.erasesW, fun _ h => absurd h (by simp)⟩
theorem workDeleteRecords_spends : ∀ p ∈ workDeleteRecords, ∀ v t, Spends (p.2 v t) 0 1 := by
  unfold workDeleteRecords
  simp only [List.forall_mem_cons]
  exact ⟨DeleteRecordsRequest.spends0, DeleteRecordsTopic21.spends0, DeleteRecordsPartition21.spends0, DeleteRecordsResponse.spends0, DeleteRecordsTopicResult21.spends0, DeleteRecordsPartitionResult21.spends0, fun _ h => absurd h (by simp)⟩

end Kafka.Msg
