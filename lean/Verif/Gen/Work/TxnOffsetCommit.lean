import Verif.Message.Work
import Verif.Gen.Model.TxnOffsetCommit
/-!
Generated by tools/gen_messages.py: steps taken by decoding the TxnOffsetCommit messages.
-/
namespace Kafka.Msg

/-- message/messages.gen.go:7499-7520 `TxnOffsetCommitRequestPartition28.Decode`, with the steps it takes -/
def TxnOffsetCommitRequestPartition28.decodeW (version : Int16) : TxnOffsetCommitRequestPartition28 → ADec TxnOffsetCommitRequestPartition28 :=
    ADec.field WDec.int32 (fun t x => { t with PartitionIndex := x }) ;>>
    ADec.field WDec.int64 (fun t x => { t with CommittedOffset := x }) ;>>
    ADec.onlyIf (version ≥ 2) (ADec.field WDec.int32 (fun t x => { t with CommittedLeaderEpoch := x })) ;>>
    ADec.field WDec.string (fun t x => { t with CommittedMetadata := x })
theorem TxnOffsetCommitRequestPartition28.erasesW (version : Int16) (t : TxnOffsetCommitRequestPartition28) : Erases (TxnOffsetCommitRequestPartition28.decodeW version t) (TxnOffsetCommitRequestPartition28.decode version t) :=
  ((ErasesStep.field (.read _))
    |>.andThen (ErasesStep.field (.read _))
    |>.andThen (ErasesStep.onlyIf (ErasesStep.field (.read _)))
    |>.andThen (ErasesStep.field .stringW) : ErasesStep _ _) t
theorem TxnOffsetCommitRequestPartition28.spends (version : Int16) (t : TxnOffsetCommitRequestPartition28) : Spends (TxnOffsetCommitRequestPartition28.decodeW version t) 25 1 :=
  (((SpendsStep.field .int32)
    |>.andThen (SpendsStep.field .int64)
    |>.andThen (SpendsStep.onlyIf (fun _ => SpendsStep.field .int32))
    |>.andThen (SpendsStep.field .string) : SpendsStep _ _) t).mono (by decide) (by decide)
theorem TxnOffsetCommitRequestPartition28.spends0 (version : Int16) (t : TxnOffsetCommitRequestPartition28) : Spends (TxnOffsetCommitRequestPartition28.decodeW version t) 0 1 :=
  (TxnOffsetCommitRequestPartition28.spends version t).mono (Nat.zero_le _) (Nat.le_refl _)

/-- message/messages.gen.go:7447-7467 `TxnOffsetCommitRequestTopic28.Decode`, with the steps it takes -/
def TxnOffsetCommitRequestTopic28.decodeW (version : Int16) : TxnOffsetCommitRequestTopic28 → ADec TxnOffsetCommitRequestTopic28 :=
    ADec.field WDec.string (fun t x => { t with Name := x }) ;>>
    WDec.fieldStructs (TxnOffsetCommitRequestPartition28.decodeW version {}) (·.Partitions) (fun t x => { t with Partitions := x })
theorem TxnOffsetCommitRequestTopic28.erasesW (version : Int16) (t : TxnOffsetCommitRequestTopic28) : Erases (TxnOffsetCommitRequestTopic28.decodeW version t) (TxnOffsetCommitRequestTopic28.decode version t) :=
  ((ErasesStep.field .stringW)
    |>.andThen (ErasesStep.structsW (TxnOffsetCommitRequestPartition28.erasesW version {})) : ErasesStep _ _) t
theorem TxnOffsetCommitRequestTopic28.spends (version : Int16) (t : TxnOffsetCommitRequestTopic28) : Spends (TxnOffsetCommitRequestTopic28.decodeW version t) 10 1 :=
  (((SpendsStep.field .string)
    |>.andThen (SpendsStep.structs ((TxnOffsetCommitRequestPartition28.spends version {}).mono (by decide) (Nat.le_refl _))) : SpendsStep _ _) t).mono (by decide) (by decide)
theorem TxnOffsetCommitRequestTopic28.spends0 (version : Int16) (t : TxnOffsetCommitRequestTopic28) : Spends (TxnOffsetCommitRequestTopic28.decodeW version t) 0 1 :=
  (TxnOffsetCommitRequestTopic28.spends version t).mono (Nat.zero_le _) (Nat.le_refl _)

/-- message/messages.gen.go:7385-7417 `TxnOffsetCommitRequest.Decode`, with the steps it takes -/
def TxnOffsetCommitRequest.decodeW (version : Int16) : TxnOffsetCommitRequest → ADec TxnOffsetCommitRequest :=
    ADec.field WDec.string (fun t x => { t with TransactionalId := x }) ;>>
    ADec.field WDec.string (fun t x => { t with GroupId := x }) ;>>
    ADec.field WDec.int64 (fun t x => { t with ProducerId := x }) ;>>
    ADec.field WDec.int16 (fun t x => { t with ProducerEpoch := x }) ;>>
    WDec.fieldStructs (TxnOffsetCommitRequestTopic28.decodeW version {}) (·.Topics) (fun t x => { t with Topics := x })
theorem TxnOffsetCommitRequest.erasesW (version : Int16) (t : TxnOffsetCommitRequest) : Erases (TxnOffsetCommitRequest.decodeW version t) (TxnOffsetCommitRequest.decode version t) :=
  ((ErasesStep.field .stringW)
    |>.andThen (ErasesStep.field .stringW)
    |>.andThen (ErasesStep.field (.read _))
    |>.andThen (ErasesStep.field (.read _))
    |>.andThen (ErasesStep.structsW (TxnOffsetCommitRequestTopic28.erasesW version {})) : ErasesStep _ _) t
theorem TxnOffsetCommitRequest.spends (version : Int16) (t : TxnOffsetCommitRequest) : Spends (TxnOffsetCommitRequest.decodeW version t) 31 1 :=
  (((SpendsStep.field .string)
    |>.andThen (SpendsStep.field .string)
    |>.andThen (SpendsStep.field .int64)
    |>.andThen (SpendsStep.field .int16)
    |>.andThen (SpendsStep.structs ((TxnOffsetCommitRequestTopic28.spends version {}).mono (by decide) (Nat.le_refl _))) : SpendsStep _ _) t).mono (by decide) (by decide)
theorem TxnOffsetCommitRequest.spends0 (version : Int16) (t : TxnOffsetCommitRequest) : Spends (TxnOffsetCommitRequest.decodeW version t) 0 1 :=
  (TxnOffsetCommitRequest.spends version t).mono (Nat.zero_le _) (Nat.le_refl _)

/-- message/messages.gen.go:7643-7654 `TxnOffsetCommitResponsePartition28.Decode`, with the steps it takes -/
def TxnOffsetCommitResponsePartition28.decodeW (_version : Int16) : TxnOffsetCommitResponsePartition28 → ADec TxnOffsetCommitResponsePartition28 :=
    ADec.field WDec.int32 (fun t x => { t with PartitionIndex := x }) ;>>
    ADec.field WDec.int16 (fun t x => { t with ErrorCode := x })
theorem TxnOffsetCommitResponsePartition28.erasesW (version : Int16) (t : TxnOffsetCommitResponsePartition28) : Erases (TxnOffsetCommitResponsePartition28.decodeW version t) (TxnOffsetCommitResponsePartition28.decode version t) :=
  ((ErasesStep.field (.read _))
    |>.andThen (ErasesStep.field (.read _)) : ErasesStep _ _) t
theorem TxnOffsetCommitResponsePartition28.spends (version : Int16) (t : TxnOffsetCommitResponsePartition28) : Spends (TxnOffsetCommitResponsePartition28.decodeW version t) 10 1 :=
  (((SpendsStep.field .int32)
    |>.andThen (SpendsStep.field .int16) : SpendsStep _ _) t).mono (by decide) (by decide)
theorem TxnOffsetCommitResponsePartition28.spends0 (version : Int16) (t : TxnOffsetCommitResponsePartition28) : Spends (TxnOffsetCommitResponsePartition28.decodeW version t) 0 1 :=
  (TxnOffsetCommitResponsePartition28.spends version t).mono (Nat.zero_le _) (Nat.le_refl _)

/-- message/messages.gen.go:7601-7621 `TxnOffsetCommitResponseTopic28.Decode`, with the steps it takes -/
def TxnOffsetCommitResponseTopic28.decodeW (version : Int16) : TxnOffsetCommitResponseTopic28 → ADec TxnOffsetCommitResponseTopic28 :=
    ADec.field WDec.string (fun t x => { t with Name := x }) ;>>
    WDec.fieldStructs (TxnOffsetCommitResponsePartition28.decodeW version {}) (·.Partitions) (fun t x => { t with Partitions := x })
theorem TxnOffsetCommitResponseTopic28.erasesW (version : Int16) (t : TxnOffsetCommitResponseTopic28) : Erases (TxnOffsetCommitResponseTopic28.decodeW version t) (TxnOffsetCommitResponseTopic28.decode version t) :=
  ((ErasesStep.field .stringW)
    |>.andThen (ErasesStep.structsW (TxnOffsetCommitResponsePartition28.erasesW version {})) : ErasesStep _ _) t
theorem TxnOffsetCommitResponseTopic28.spends (version : Int16) (t : TxnOffsetCommitResponseTopic28) : Spends (TxnOffsetCommitResponseTopic28.decodeW version t) 10 1 :=
  (((SpendsStep.field .string)
    |>.andThen (SpendsStep.structs ((TxnOffsetCommitResponsePartition28.spends version {}).mono (by decide) (Nat.le_refl _))) : SpendsStep _ _) t).mono (by decide) (by decide)
theorem TxnOffsetCommitResponseTopic28.spends0 (version : Int16) (t : TxnOffsetCommitResponseTopic28) : Spends (TxnOffsetCommitResponseTopic28.decodeW version t) 0 1 :=
  (TxnOffsetCommitResponseTopic28.spends version t).mono (Nat.zero_le _) (Nat.le_refl _)

/-- message/messages.gen.go:7551-7571 `TxnOffsetCommitResponse.Decode`, with the steps it takes -/
def TxnOffsetCommitResponse.decodeW (version : Int16) : TxnOffsetCommitResponse → ADec TxnOffsetCommitResponse :=
    ADec.field WDec.int32 (fun t x => { t with ThrottleTimeMs := x }) ;>>
    WDec.fieldStructs (TxnOffsetCommitResponseTopic28.decodeW version {}) (·.Topics) (fun t x => { t with Topics := x })
theorem TxnOffsetCommitResponse.erasesW (version : Int16) (t : TxnOffsetCommitResponse) : Erases (TxnOffsetCommitResponse.decodeW version t) (TxnOffsetCommitResponse.decode version t) :=
  ((ErasesStep.field (.read _))
    |>.andThen (ErasesStep.structsW (TxnOffsetCommitResponseTopic28.erasesW version {})) : ErasesStep _ _) t
theorem TxnOffsetCommitResponse.spends (version : Int16) (t : TxnOffsetCommitResponse) : Spends (TxnOffsetCommitResponse.decodeW version t) 14 1 :=
  (((SpendsStep.field .int32)
    |>.andThen (SpendsStep.structs ((TxnOffsetCommitResponseTopic28.spends version {}).mono (by decide) (Nat.le_refl _))) : SpendsStep _ _) t).mono (by decide) (by decide)
theorem TxnOffsetCommitResponse.spends0 (version : Int16) (t : TxnOffsetCommitResponse) : Spends (TxnOffsetCommitResponse.decodeW version t) 0 1 :=
  (TxnOffsetCommitResponse.spends version t).mono (Nat.zero_le _) (Nat.le_refl _)

/-- The structures of the TxnOffsetCommit messages. -/
def workTxnOffsetCommit : List (Σ M : MsgType, Int16 → M.T → ADec M.T) :=
  [⟨TxnOffsetCommitRequest.type, TxnOffsetCommitRequest.decodeW⟩,
   ⟨TxnOffsetCommitRequestTopic28.type, TxnOffsetCommitRequestTopic28.decodeW⟩,
   ⟨TxnOffsetCommitRequestPartition28.type, TxnOffsetCommitRequestPartition28.decodeW⟩,
   ⟨TxnOffsetCommitResponse.type, TxnOffsetCommitResponse.decodeW⟩,
   ⟨TxnOffsetCommitResponseTopic28.type, TxnOffsetCommitResponseTopic28.decodeW⟩,
   ⟨TxnOffsetCommitResponsePartition28.type, TxnOffsetCommitResponsePartition28.decodeW⟩]
theorem workTxnOffsetCommit_erases : ∀ p ∈ workTxnOffsetCommit, ∀ v t, Erases (p.2 v t) (p.1.decode v t) := by
  unfold workTxnOffsetCommit
  simp only [List.forall_mem_cons]
  exact ⟨TxnOffsetCommitRequest.erasesW, TxnOffsetCommitRequestTopic28.erasesW, TxnOffsetCommitRequestPartition28.erasesW, TxnOffsetCommitResponse.erasesW, TxnOffsetCommitResponseTopic28.erasesW, TxnOffsetCommitResponsePartition28.erasesW, fun _ h => absurd h (by simp)⟩
theorem workTxnOffsetCommit_spends : ∀ p ∈ workTxnOffsetCommit, ∀ v t, Spends (p.2 v t) 0 1 := by
  unfold workTxnOffsetCommit
  simp only [List.forall_mem_cons]
  exact ⟨TxnOffsetCommitRequest.spends0, TxnOffsetCommitRequestTopic28.spends0, TxnOffsetCommitRequestPartition28.spends0, TxnOffsetCommitResponse.spends0, TxnOffsetCommitResponseTopic28.spends0, TxnOffsetCommitResponsePartition28.spends0, fun _ h => absurd h (by simp)⟩

end Kafka.Msg
