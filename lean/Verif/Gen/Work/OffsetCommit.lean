import Verif.Message.Work
import Verif.Gen.Model.OffsetCommit
/-!
Generated by tools/gen_messages.py: steps taken by decoding the OffsetCommit messages.
-/
namespace Kafka.Msg

/-- message/messages.gen.go:3470-3491 `OffsetCommitRequestPartition8.Decode`, with the steps it takes -/
def OffsetCommitRequestPartition8.decodeW (version : Int16) : OffsetCommitRequestPartition8 → ADec OffsetCommitRequestPartition8 :=
    ADec.field WDec.int32 (fun t x => { t with PartitionIndex := x }) ;>>
    ADec.field WDec.int64 (fun t x => { t with CommittedOffset := x }) ;>>
    ADec.onlyIf (version ≥ 6) (ADec.field WDec.int32 (fun t x => { t with CommittedLeaderEpoch := x })) ;>>
    ADec.field WDec.string (fun t x => { t with CommittedMetadata := x })
theorem OffsetCommitRequestPartition8.erasesW (version : Int16) (t : OffsetCommitRequestPartition8) : Erases (OffsetCommitRequestPartition8.decodeW version t) (OffsetCommitRequestPartition8.decode version t) :=
  ((ErasesStep.field (.read _))
    |>.andThen (ErasesStep.field (.read _))
    |>.andThen (ErasesStep.onlyIf (ErasesStep.field (.read _)))
    |>.andThen (ErasesStep.field .stringW) : ErasesStep _ _) t
theorem OffsetCommitRequestPartition8.spends (version : Int16) (t : OffsetCommitRequestPartition8) : Spends (OffsetCommitRequestPartition8.decodeW version t) 25 1 :=
  (((SpendsStep.field .int32)
    |>.andThen (SpendsStep.field .int64)
    |>.andThen (SpendsStep.onlyIf (fun _ => SpendsStep.field .int32))
    |>.andThen (SpendsStep.field .string) : SpendsStep _ _) t).mono (by decide) (by decide)
theorem OffsetCommitRequestPartition8.spends0 (version : Int16) (t : OffsetCommitRequestPartition8) : Spends (OffsetCommitRequestPartition8.decodeW version t) 0 1 :=
  (OffsetCommitRequestPartition8.spends version t).mono (Nat.zero_le _) (Nat.le_refl _)

/-- message/messages.gen.go:3418-3438 `OffsetCommitRequestTopic8.Decode`, with the steps it takes -/
def OffsetCommitRequestTopic8.decodeW (version : Int16) : OffsetCommitRequestTopic8 → ADec OffsetCommitRequestTopic8 :=
    ADec.field WDec.string (fun t x => { t with Name := x }) ;>>
    WDec.fieldStructs (OffsetCommitRequestPartition8.decodeW version {}) (·.Partitions) (fun t x => { t with Partitions := x })
theorem OffsetCommitRequestTopic8.erasesW (version : Int16) (t : OffsetCommitRequestTopic8) : Erases (OffsetCommitRequestTopic8.decodeW version t) (OffsetCommitRequestTopic8.decode version t) :=
  ((ErasesStep.field .stringW)
    |>.andThen (ErasesStep.structsW (OffsetCommitRequestPartition8.erasesW version {})) : ErasesStep _ _) t
theorem OffsetCommitRequestTopic8.spends (version : Int16) (t : OffsetCommitRequestTopic8) : Spends (OffsetCommitRequestTopic8.decodeW version t) 10 1 :=
  (((SpendsStep.field .string)
    |>.andThen (SpendsStep.structs ((OffsetCommitRequestPartition8.spends version {}).mono (by decide) (Nat.le_refl _))) : SpendsStep _ _) t).mono (by decide) (by decide)
theorem OffsetCommitRequestTopic8.spends0 (version : Int16) (t : OffsetCommitRequestTopic8) : Spends (OffsetCommitRequestTopic8.decodeW version t) 0 1 :=
  (OffsetCommitRequestTopic8.spends version t).mono (Nat.zero_le _) (Nat.le_refl _)

/-- message/messages.gen.go:3344-3388 `OffsetCommitRequest.Decode`, with the steps it takes -/
def OffsetCommitRequest.decodeW (version : Int16) : OffsetCommitRequest → ADec OffsetCommitRequest :=
    ADec.field WDec.string (fun t x => { t with GroupId := x }) ;>>
    ADec.onlyIf (version ≥ 1) (ADec.field WDec.int32 (fun t x => { t with GenerationId := x })) ;>>
    ADec.onlyIf (version ≥ 1) (ADec.field WDec.string (fun t x => { t with MemberId := x })) ;>>
    ADec.onlyIf (version ≥ 7) (ADec.field WDec.string (fun t x => { t with GroupInstanceId := x })) ;>>
    ADec.onlyIf (version ≥ 2 ∧ version ≤ 4) (ADec.field WDec.int64 (fun t x => { t with RetentionTimeMs := x })) ;>>
    WDec.fieldStructs (OffsetCommitRequestTopic8.decodeW version {}) (·.Topics) (fun t x => { t with Topics := x })
theorem OffsetCommitRequest.erasesW (version : Int16) (t : OffsetCommitRequest) : Erases (OffsetCommitRequest.decodeW version t) (OffsetCommitRequest.decode version t) :=
  ((ErasesStep.field .stringW)
    |>.andThen (ErasesStep.onlyIf (ErasesStep.field (.read _)))
    |>.andThen (ErasesStep.onlyIf (ErasesStep.field .stringW))
    |>.andThen (ErasesStep.onlyIf (ErasesStep.field .stringW))
    |>.andThen (ErasesStep.onlyIf (ErasesStep.field (.read _)))
    |>.andThen (ErasesStep.structsW (OffsetCommitRequestTopic8.erasesW version {})) : ErasesStep _ _) t
theorem OffsetCommitRequest.spends (version : Int16) (t : OffsetCommitRequest) : Spends (OffsetCommitRequest.decodeW version t) 10 1 :=
  (((SpendsStep.field .string)
    |>.andThen (SpendsStep.onlyIf (fun _ => SpendsStep.field .int32))
    |>.andThen (SpendsStep.onlyIf (fun _ => SpendsStep.field .string))
    |>.andThen (SpendsStep.onlyIf (fun _ => SpendsStep.field .string))
    |>.andThen (SpendsStep.onlyIf (fun _ => SpendsStep.field .int64))
    |>.andThen (SpendsStep.structs ((OffsetCommitRequestTopic8.spends version {}).mono (by decide) (Nat.le_refl _))) : SpendsStep _ _) t).mono (by decide) (by decide)
theorem OffsetCommitRequest.spends0 (version : Int16) (t : OffsetCommitRequest) : Spends (OffsetCommitRequest.decodeW version t) 0 1 :=
  (OffsetCommitRequest.spends version t).mono (Nat.zero_le _) (Nat.le_refl _)

/-- message/messages.gen.go:3620-3631 `OffsetCommitResponsePartition8.Decode`, with the steps it takes -/
def OffsetCommitResponsePartition8.decodeW (_version : Int16) : OffsetCommitResponsePartition8 → ADec OffsetCommitResponsePartition8 :=
    ADec.field WDec.int32 (fun t x => { t with PartitionIndex := x }) ;>>
    ADec.field WDec.int16 (fun t x => { t with ErrorCode := x })
theorem OffsetCommitResponsePartition8.erasesW (version : Int16) (t : OffsetCommitResponsePartition8) : Erases (OffsetCommitResponsePartition8.decodeW version t) (OffsetCommitResponsePartition8.decode version t) :=
  ((ErasesStep.field (.read _))
    |>.andThen (ErasesStep.field (.read _)) : ErasesStep _ _) t
theorem OffsetCommitResponsePartition8.spends (version : Int16) (t : OffsetCommitResponsePartition8) : Spends (OffsetCommitResponsePartition8.decodeW version t) 10 1 :=
  (((SpendsStep.field .int32)
    |>.andThen (SpendsStep.field .int16) : SpendsStep _ _) t).mono (by decide) (by decide)
theorem OffsetCommitResponsePartition8.spends0 (version : Int16) (t : OffsetCommitResponsePartition8) : Spends (OffsetCommitResponsePartition8.decodeW version t) 0 1 :=
  (OffsetCommitResponsePartition8.spends version t).mono (Nat.zero_le _) (Nat.le_refl _)

/-- message/messages.gen.go:3578-3598 `OffsetCommitResponseTopic8.Decode`, with the steps it takes -/
def OffsetCommitResponseTopic8.decodeW (version : Int16) : OffsetCommitResponseTopic8 → ADec OffsetCommitResponseTopic8 :=
    ADec.field WDec.string (fun t x => { t with Name := x }) ;>>
    WDec.fieldStructs (OffsetCommitResponsePartition8.decodeW version {}) (·.Partitions) (fun t x => { t with Partitions := x })
theorem OffsetCommitResponseTopic8.erasesW (version : Int16) (t : OffsetCommitResponseTopic8) : Erases (OffsetCommitResponseTopic8.decodeW version t) (OffsetCommitResponseTopic8.decode version t) :=
  ((ErasesStep.field .stringW)
    |>.andThen (ErasesStep.structsW (OffsetCommitResponsePartition8.erasesW version {})) : ErasesStep _ _) t
theorem OffsetCommitResponseTopic8.spends (version : Int16) (t : OffsetCommitResponseTopic8) : Spends (OffsetCommitResponseTopic8.decodeW version t) 10 1 :=
  (((SpendsStep.field .string)
    |>.andThen (SpendsStep.structs ((OffsetCommitResponsePartition8.spends version {}).mono (by decide) (Nat.le_refl _))) : SpendsStep _ _) t).mono (by decide) (by decide)
theorem OffsetCommitResponseTopic8.spends0 (version : Int16) (t : OffsetCommitResponseTopic8) : Spends (OffsetCommitResponseTopic8.decodeW version t) 0 1 :=
  (OffsetCommitResponseTopic8.spends version t).mono (Nat.zero_le _) (Nat.le_refl _)

/-- message/messages.gen.go:3526-3548 `OffsetCommitResponse.Decode`, with the steps it takes -/
def OffsetCommitResponse.decodeW (version : Int16) : OffsetCommitResponse → ADec OffsetCommitResponse :=
    ADec.onlyIf (version ≥ 3) (ADec.field WDec.int32 (fun t x => { t with ThrottleTimeMs := x })) ;>>
    WDec.fieldStructs (OffsetCommitResponseTopic8.decodeW version {}) (·.Topics) (fun t x => { t with Topics := x })
theorem OffsetCommitResponse.erasesW (version : Int16) (t : OffsetCommitResponse) : Erases (OffsetCommitResponse.decodeW version t) (OffsetCommitResponse.decode version t) :=
  ((ErasesStep.onlyIf (ErasesStep.field (.read _)))
    |>.andThen (ErasesStep.structsW (OffsetCommitResponseTopic8.erasesW version {})) : ErasesStep _ _) t
theorem OffsetCommitResponse.spends (version : Int16) (t : OffsetCommitResponse) : Spends (OffsetCommitResponse.decodeW version t) 7 1 :=
  (((SpendsStep.onlyIf (fun _ => SpendsStep.field .int32))
    |>.andThen (SpendsStep.structs ((OffsetCommitResponseTopic8.spends version {}).mono (by decide) (Nat.le_refl _))) : SpendsStep _ _) t).mono (by decide) (by decide)
theorem OffsetCommitResponse.spends0 (version : Int16) (t : OffsetCommitResponse) : Spends (OffsetCommitResponse.decodeW version t) 0 1 :=
  (OffsetCommitResponse.spends version t).mono (Nat.zero_le _) (Nat.le_refl _)

/-- The structures of the OffsetCommit messages. -/
def workOffsetCommit : List (Σ M : MsgType, Int16 → M.T → ADec M.T) :=
  [⟨OffsetCommitRequest.type, OffsetCommitRequest.decodeW⟩,
   ⟨OffsetCommitRequestTopic8.type, OffsetCommitRequestTopic8.decodeW⟩,
   ⟨OffsetCommitRequestPartition8.type, OffsetCommitRequestPartition8.decodeW⟩,
   ⟨OffsetCommitResponse.type, OffsetCommitResponse.decodeW⟩,
   ⟨OffsetCommitResponseTopic8.type, OffsetCommitResponseTopic8.decodeW⟩,
   ⟨OffsetCommitResponsePartition8.type, OffsetCommitResponsePartition8.decodeW⟩]
theorem workOffsetCommit_erases : ∀ p ∈ workOffsetCommit, ∀ v t, Erases (p.2 v t) (p.1.decode v t) := by
  unfold workOffsetCommit
  simp only [List.forall_mem_cons]
  exact ⟨OffsetCommitRequest.erasesW, OffsetCommitRequestTopic8.erasesW, OffsetCommitRequestPartition8.erasesW, OffsetCommitResponse.erasesW, OffsetCommitResponseTopic8.erasesW, OffsetCommitResponsePartition8.erasesW, fun _ h => absurd h (by simp)⟩
theorem workOffsetCommit_spends : ∀ p ∈ workOffsetCommit, ∀ v t, Spends (p.2 v t) 0 1 := by
  unfold workOffsetCommit
  simp only [List.forall_mem_cons]
  exact ⟨OffsetCommitRequest.spends0, OffsetCommitRequestTopic8.spends0, OffsetCommitRequestPartition8.spends0, OffsetCommitResponse.spends0, OffsetCommitResponseTopic8.spends0, OffsetCommitResponsePartition8.spends0, fun _ h => absurd h (by simp)⟩

end Kafka.Msg
