import Verif.Message.Work
import Verif.Gen.Model.OffsetForLeaderEpoch
/-!
Generated by tools/gen_messages.py: steps taken by decoding the OffsetForLeaderEpoch messages.
-/
namespace Kafka.Msg

/-- message/messages.gen.go:6447-6464 `OffsetForLeaderPartition23.Decode`, with the steps it takes -/
def OffsetForLeaderPartition23.decodeW (version : Int16) : OffsetForLeaderPartition23 → ADec OffsetForLeaderPartition23 :=
    ADec.field WDec.int32 (fun t x => { t with PartitionIndex := x }) ;>>
    ADec.onlyIf (version ≥ 2) (ADec.field WDec.int32 (fun t x => { t with CurrentLeaderEpoch := x })) ;>>
    ADec.field WDec.int32 (fun t x => { t with LeaderEpoch := x })
theorem OffsetForLeaderPartition23.erasesW (version : Int16) (t : OffsetForLeaderPartition23) : Erases (OffsetForLeaderPartition23.decodeW version t) (OffsetForLeaderPartition23.decode version t) :=
  ((ErasesStep.field (.read _))
    |>.andThen (ErasesStep.onlyIf (ErasesStep.field (.read _)))
    |>.andThen (ErasesStep.field (.read _)) : ErasesStep _ _) t
theorem OffsetForLeaderPartition23.spends (version : Int16) (t : OffsetForLeaderPartition23) : Spends (OffsetForLeaderPartition23.decodeW version t) 14 1 :=
  (((SpendsStep.field .int32)
    |>.andThen (SpendsStep.onlyIf (fun _ => SpendsStep.field .int32))
    |>.andThen (SpendsStep.field .int32) : SpendsStep _ _) t).mono (by decide) (by decide)
theorem OffsetForLeaderPartition23.spends0 (version : Int16) (t : OffsetForLeaderPartition23) : Spends (OffsetForLeaderPartition23.decodeW version t) 0 1 :=
  (OffsetForLeaderPartition23.spends version t).mono (Nat.zero_le _) (Nat.le_refl _)

/-- message/messages.gen.go:6398-6418 `OffsetForLeaderTopic23.Decode`, with the steps it takes -/
def OffsetForLeaderTopic23.decodeW (version : Int16) : OffsetForLeaderTopic23 → ADec OffsetForLeaderTopic23 :=
    ADec.field WDec.string (fun t x => { t with Name := x }) ;>>
    WDec.fieldStructs (OffsetForLeaderPartition23.decodeW version {}) (·.Partitions) (fun t x => { t with Partitions := x })
theorem OffsetForLeaderTopic23.erasesW (version : Int16) (t : OffsetForLeaderTopic23) : Erases (OffsetForLeaderTopic23.decodeW version t) (OffsetForLeaderTopic23.decode version t) :=
  ((ErasesStep.field .stringW)
    |>.andThen (ErasesStep.structsW (OffsetForLeaderPartition23.erasesW version {})) : ErasesStep _ _) t
theorem OffsetForLeaderTopic23.spends (version : Int16) (t : OffsetForLeaderTopic23) : Spends (OffsetForLeaderTopic23.decodeW version t) 10 1 :=
  (((SpendsStep.field .string)
    |>.andThen (SpendsStep.structs ((OffsetForLeaderPartition23.spends version {}).mono (by decide) (Nat.le_refl _))) : SpendsStep _ _) t).mono (by decide) (by decide)
theorem OffsetForLeaderTopic23.spends0 (version : Int16) (t : OffsetForLeaderTopic23) : Spends (OffsetForLeaderTopic23.decodeW version t) 0 1 :=
  (OffsetForLeaderTopic23.spends version t).mono (Nat.zero_le _) (Nat.le_refl _)

/-- message/messages.gen.go:6346-6368 `OffsetForLeaderEpochRequest.Decode`, with the steps it takes -/
def OffsetForLeaderEpochRequest.decodeW (version : Int16) : OffsetForLeaderEpochRequest → ADec OffsetForLeaderEpochRequest :=
    ADec.onlyIf (version ≥ 3) (ADec.field WDec.int32 (fun t x => { t with ReplicaId := x })) ;>>
    WDec.fieldStructs (OffsetForLeaderTopic23.decodeW version {}) (·.Topics) (fun t x => { t with Topics := x })
theorem OffsetForLeaderEpochRequest.erasesW (version : Int16) (t : OffsetForLeaderEpochRequest) : Erases (OffsetForLeaderEpochRequest.decodeW version t) (OffsetForLeaderEpochRequest.decode version t) :=
  ((ErasesStep.onlyIf (ErasesStep.field (.read _)))
    |>.andThen (ErasesStep.structsW (OffsetForLeaderTopic23.erasesW version {})) : ErasesStep _ _) t
theorem OffsetForLeaderEpochRequest.spends (version : Int16) (t : OffsetForLeaderEpochRequest) : Spends (OffsetForLeaderEpochRequest.decodeW version t) 7 1 :=
  (((SpendsStep.onlyIf (fun _ => SpendsStep.field .int32))
    |>.andThen (SpendsStep.structs ((OffsetForLeaderTopic23.spends version {}).mono (by decide) (Nat.le_refl _))) : SpendsStep _ _) t).mono (by decide) (by decide)
theorem OffsetForLeaderEpochRequest.spends0 (version : Int16) (t : OffsetForLeaderEpochRequest) : Spends (OffsetForLeaderEpochRequest.decodeW version t) 0 1 :=
  (OffsetForLeaderEpochRequest.spends version t).mono (Nat.zero_le _) (Nat.le_refl _)

/-- message/messages.gen.go:6603-6624 `OffsetForLeaderPartitionResult23.Decode`, with the steps it takes -/
def OffsetForLeaderPartitionResult23.decodeW (version : Int16) : OffsetForLeaderPartitionResult23 → ADec OffsetForLeaderPartitionResult23 :=
    ADec.field WDec.int16 (fun t x => { t with ErrorCode := x }) ;>>
    ADec.field WDec.int32 (fun t x => { t with PartitionIndex := x }) ;>>
    ADec.onlyIf (version ≥ 1) (ADec.field WDec.int32 (fun t x => { t with LeaderEpoch := x })) ;>>
    ADec.field WDec.int64 (fun t x => { t with EndOffset := x })
theorem OffsetForLeaderPartitionResult23.erasesW (version : Int16) (t : OffsetForLeaderPartitionResult23) : Erases (OffsetForLeaderPartitionResult23.decodeW version t) (OffsetForLeaderPartitionResult23.decode version t) :=
  ((ErasesStep.field (.read _))
    |>.andThen (ErasesStep.field (.read _))
    |>.andThen (ErasesStep.onlyIf (ErasesStep.field (.read _)))
    |>.andThen (ErasesStep.field (.read _)) : ErasesStep _ _) t
theorem OffsetForLeaderPartitionResult23.spends (version : Int16) (t : OffsetForLeaderPartitionResult23) : Spends (OffsetForLeaderPartitionResult23.decodeW version t) 25 1 :=
  (((SpendsStep.field .int16)
    |>.andThen (SpendsStep.field .int32)
    |>.andThen (SpendsStep.onlyIf (fun _ => SpendsStep.field .int32))
    |>.andThen (SpendsStep.field .int64) : SpendsStep _ _) t).mono (by decide) (by decide)
theorem OffsetForLeaderPartitionResult23.spends0 (version : Int16) (t : OffsetForLeaderPartitionResult23) : Spends (OffsetForLeaderPartitionResult23.decodeW version t) 0 1 :=
  (OffsetForLeaderPartitionResult23.spends version t).mono (Nat.zero_le _) (Nat.le_refl _)

/-- message/messages.gen.go:6551-6571 `OffsetForLeaderTopicResult23.Decode`, with the steps it takes -/
def OffsetForLeaderTopicResult23.decodeW (version : Int16) : OffsetForLeaderTopicResult23 → ADec OffsetForLeaderTopicResult23 :=
    ADec.field WDec.string (fun t x => { t with Name := x }) ;>>
    WDec.fieldStructs (OffsetForLeaderPartitionResult23.decodeW version {}) (·.Partitions) (fun t x => { t with Partitions := x })
theorem OffsetForLeaderTopicResult23.erasesW (version : Int16) (t : OffsetForLeaderTopicResult23) : Erases (OffsetForLeaderTopicResult23.decodeW version t) (OffsetForLeaderTopicResult23.decode version t) :=
  ((ErasesStep.field .stringW)
    |>.andThen (ErasesStep.structsW (OffsetForLeaderPartitionResult23.erasesW version {})) : ErasesStep _ _) t
theorem OffsetForLeaderTopicResult23.spends (version : Int16) (t : OffsetForLeaderTopicResult23) : Spends (OffsetForLeaderTopicResult23.decodeW version t) 10 1 :=
  (((SpendsStep.field .string)
    |>.andThen (SpendsStep.structs ((OffsetForLeaderPartitionResult23.spends version {}).mono (by decide) (Nat.le_refl _))) : SpendsStep _ _) t).mono (by decide) (by decide)
theorem OffsetForLeaderTopicResult23.spends0 (version : Int16) (t : OffsetForLeaderTopicResult23) : Spends (OffsetForLeaderTopicResult23.decodeW version t) 0 1 :=
  (OffsetForLeaderTopicResult23.spends version t).mono (Nat.zero_le _) (Nat.le_refl _)

/-- message/messages.gen.go:6499-6521 `OffsetForLeaderEpochResponse.Decode`, with the steps it takes -/
def OffsetForLeaderEpochResponse.decodeW (version : Int16) : OffsetForLeaderEpochResponse → ADec OffsetForLeaderEpochResponse :=
    ADec.onlyIf (version ≥ 2) (ADec.field WDec.int32 (fun t x => { t with ThrottleTimeMs := x })) ;>>
    WDec.fieldStructs (OffsetForLeaderTopicResult23.decodeW version {}) (·.Topics) (fun t x => { t with Topics := x })
theorem OffsetForLeaderEpochResponse.erasesW (version : Int16) (t : OffsetForLeaderEpochResponse) : Erases (OffsetForLeaderEpochResponse.decodeW version t) (OffsetForLeaderEpochResponse.decode version t) :=
  ((ErasesStep.onlyIf (ErasesStep.field (.read _)))
    |>.andThen (ErasesStep.structsW (OffsetForLeaderTopicResult23.erasesW version {})) : ErasesStep _ _) t
theorem OffsetForLeaderEpochResponse.spends (version : Int16) (t : OffsetForLeaderEpochResponse) : Spends (OffsetForLeaderEpochResponse.decodeW version t) 7 1 :=
  (((SpendsStep.onlyIf (fun _ => SpendsStep.field .int32))
    |>.andThen (SpendsStep.structs ((OffsetForLeaderTopicResult23.spends version {}).mono (by decide) (Nat.le_refl _))) : SpendsStep _ _) t).mono (by decide) (by decide)
theorem OffsetForLeaderEpochResponse.spends0 (version : Int16) (t : OffsetForLeaderEpochResponse) : Spends (OffsetForLeaderEpochResponse.decodeW version t) 0 1 :=
  (OffsetForLeaderEpochResponse.spends version t).mono (Nat.zero_le _) (Nat.le_refl _)

/-- The structures of the OffsetForLeaderEpoch messages. -/
def workOffsetForLeaderEpoch : List (Σ M : MsgType, Int16 → M.T → ADec M.T) :=
  [⟨OffsetForLeaderEpochRequest.type, OffsetForLeaderEpochRequest.decodeW⟩,
   ⟨OffsetForLeaderTopic23.type, OffsetForLeaderTopic23.decodeW⟩,
   ⟨OffsetForLeaderPartition23.type, OffsetForLeaderPartition23.decodeW⟩,
   ⟨OffsetForLeaderEpochResponse.type, OffsetForLeaderEpochResponse.decodeW⟩,
   ⟨OffsetForLeaderTopicResult23.type, OffsetForLeaderTopicResult23.decodeW⟩,
   ⟨OffsetForLeaderPartitionResult23.type, OffsetForLeaderPartitionResult23.decodeW⟩]
theorem workOffsetForLeaderEpoch_erases : ∀ p ∈ workOffsetForLeaderEpoch, ∀ v t, Erases (p.2 v t) (p.1.decode v t) := by
  unfold workOffsetForLeaderEpoch
  simp only [List.forall_mem_cons]
  exact ⟨OffsetForLeaderEpochRequest.erasesW, OffsetForLeaderTopic23.erasesW, OffsetForLeaderPartition23.erasesW, OffsetForLeaderEpochResponse.erasesW, OffsetForLeaderTopicResult23.erasesW, OffsetForLeaderPartitionResult23.erasesW, fun _ h => absurd h (by simp)⟩
theorem workOffsetForLeaderEpoch_spends : ∀ p ∈ workOffsetForLeaderEpoch, ∀ v t, Spends (p.2 v t) 0 1 := by
  unfold workOffsetForLeaderEpoch
  simp only [List.forall_mem_cons]
  exact ⟨OffsetForLeaderEpochRequest.spends0, OffsetForLeaderTopic23.spends0, OffsetForLeaderPartition23.spends0, OffsetForLeaderEpochResponse.spends0, OffsetForLeaderTopicResult23.spends0, OffsetForLeaderPartitionResult23.spends0, fun _ h => absurd h (by simp)⟩

end Kafka.Msg
