import Verif.Message.Work
import Verif.Gen.Model.DescribeLogDirs
/-!
Generated by tools/gen_messages.py: steps taken by decoding the DescribeLogDirs messages.
-/
namespace Kafka.Msg

/-- message/messages.gen.go:9373-9384 `DescribableLogDirTopic35.Decode`, with the steps it takes -/
def DescribableLogDirTopic35.decodeW (_version : Int16) : DescribableLogDirTopic35 → ADec DescribableLogDirTopic35 :=
    ADec.field WDec.string (fun t x => { t with Topic := x }) ;>>
    ADec.field WDec.int32Array (fun t x => { t with PartitionIndex := x })
theorem DescribableLogDirTopic35.erasesW (version : Int16) (t : DescribableLogDirTopic35) : Erases (DescribableLogDirTopic35.decodeW version t) (DescribableLogDirTopic35.decode version t) :=
  ((ErasesStep.field .stringW)
    |>.andThen (ErasesStep.field (.arrayOfW (.read _))) : ErasesStep _ _) t
theorem DescribableLogDirTopic35.spends (version : Int16) (t : DescribableLogDirTopic35) : Spends (DescribableLogDirTopic35.decodeW version t) 10 1 :=
  (((SpendsStep.field .string)
    |>.andThen (SpendsStep.field .int32Array) : SpendsStep _ _) t).mono (by decide) (by decide)
theorem DescribableLogDirTopic35.spends0 (version : Int16) (t : DescribableLogDirTopic35) : Spends (DescribableLogDirTopic35.decodeW version t) 0 1 :=
  (DescribableLogDirTopic35.spends version t).mono (Nat.zero_le _) (Nat.le_refl _)

/-- message/messages.gen.go:9335-9351 `DescribeLogDirsRequest.Decode`, with the steps it takes -/
def DescribeLogDirsRequest.decodeW (version : Int16) : DescribeLogDirsRequest → ADec DescribeLogDirsRequest :=
    WDec.fieldStructs (DescribableLogDirTopic35.decodeW version {}) (·.Topics) (fun t x => { t with Topics := x })
theorem DescribeLogDirsRequest.erasesW (version : Int16) (t : DescribeLogDirsRequest) : Erases (DescribeLogDirsRequest.decodeW version t) (DescribeLogDirsRequest.decode version t) :=
  (ErasesStep.structsW (DescribableLogDirTopic35.erasesW version {}) : ErasesStep _ _) t
theorem DescribeLogDirsRequest.spends (version : Int16) (t : DescribeLogDirsRequest) : Spends (DescribeLogDirsRequest.decodeW version t) 7 1 :=
  ((SpendsStep.structs ((DescribableLogDirTopic35.spends version {}).mono (by decide) (Nat.le_refl _)) : SpendsStep _ _) t).mono (by decide) (by decide)
theorem DescribeLogDirsRequest.spends0 (version : Int16) (t : DescribeLogDirsRequest) : Spends (DescribeLogDirsRequest.decodeW version t) 0 1 :=
  (DescribeLogDirsRequest.spends version t).mono (Nat.zero_le _) (Nat.le_refl _)

/-- message/messages.gen.go:9570-9589 `DescribeLogDirsPartition35.Decode`, with the steps it takes -/
def DescribeLogDirsPartition35.decodeW (_version : Int16) : DescribeLogDirsPartition35 → ADec DescribeLogDirsPartition35 :=
    ADec.field WDec.int32 (fun t x => { t with PartitionIndex := x }) ;>>
    ADec.field WDec.int64 (fun t x => { t with PartitionSize := x }) ;>>
    ADec.field WDec.int64 (fun t x => { t with OffsetLag := x }) ;>>
    ADec.field WDec.bool (fun t x => { t with IsFutureKey := x })
theorem DescribeLogDirsPartition35.erasesW (version : Int16) (t : DescribeLogDirsPartition35) : Erases (DescribeLogDirsPartition35.decodeW version t) (DescribeLogDirsPartition35.decode version t) :=
  ((ErasesStep.field (.read _))
    |>.andThen (ErasesStep.field (.read _))
    |>.andThen (ErasesStep.field (.read _))
    |>.andThen (ErasesStep.field (.read _)) : ErasesStep _ _) t
theorem DescribeLogDirsPartition35.spends (version : Int16) (t : DescribeLogDirsPartition35) : Spends (DescribeLogDirsPartition35.decodeW version t) 38 1 :=
  (((SpendsStep.field .int32)
    |>.andThen (SpendsStep.field .int64)
    |>.andThen (SpendsStep.field .int64)
    |>.andThen (SpendsStep.field .bool) : SpendsStep _ _) t).mono (by decide) (by decide)
theorem DescribeLogDirsPartition35.spends0 (version : Int16) (t : DescribeLogDirsPartition35) : Spends (DescribeLogDirsPartition35.decodeW version t) 0 1 :=
  (DescribeLogDirsPartition35.spends version t).mono (Nat.zero_le _) (Nat.le_refl _)

/-- message/messages.gen.go:9522-9542 `DescribeLogDirsTopic35.Decode`, with the steps it takes -/
def DescribeLogDirsTopic35.decodeW (version : Int16) : DescribeLogDirsTopic35 → ADec DescribeLogDirsTopic35 :=
    ADec.field WDec.string (fun t x => { t with Name := x }) ;>>
    WDec.fieldStructs (DescribeLogDirsPartition35.decodeW version {}) (·.Partitions) (fun t x => { t with Partitions := x })
theorem DescribeLogDirsTopic35.erasesW (version : Int16) (t : DescribeLogDirsTopic35) : Erases (DescribeLogDirsTopic35.decodeW version t) (DescribeLogDirsTopic35.decode version t) :=
  ((ErasesStep.field .stringW)
    |>.andThen (ErasesStep.structsW (DescribeLogDirsPartition35.erasesW version {})) : ErasesStep _ _) t
theorem DescribeLogDirsTopic35.spends (version : Int16) (t : DescribeLogDirsTopic35) : Spends (DescribeLogDirsTopic35.decodeW version t) 10 1 :=
  (((SpendsStep.field .string)
    |>.andThen (SpendsStep.structs ((DescribeLogDirsPartition35.spends version {}).mono (by decide) (Nat.le_refl _))) : SpendsStep _ _) t).mono (by decide) (by decide)
theorem DescribeLogDirsTopic35.spends0 (version : Int16) (t : DescribeLogDirsTopic35) : Spends (DescribeLogDirsTopic35.decodeW version t) 0 1 :=
  (DescribeLogDirsTopic35.spends version t).mono (Nat.zero_le _) (Nat.le_refl _)

/-- message/messages.gen.go:9468-9492 `DescribeLogDirsResult35.Decode`, with the steps it takes -/
def DescribeLogDirsResult35.decodeW (version : Int16) : DescribeLogDirsResult35 → ADec DescribeLogDirsResult35 :=
    ADec.field WDec.int16 (fun t x => { t with ErrorCode := x }) ;>>
    ADec.field WDec.string (fun t x => { t with LogDir := x }) ;>>
    WDec.fieldStructs (DescribeLogDirsTopic35.decodeW version {}) (·.Topics) (fun t x => { t with Topics := x })
theorem DescribeLogDirsResult35.erasesW (version : Int16) (t : DescribeLogDirsResult35) : Erases (DescribeLogDirsResult35.decodeW version t) (DescribeLogDirsResult35.decode version t) :=
  ((ErasesStep.field (.read _))
    |>.andThen (ErasesStep.field .stringW)
    |>.andThen (ErasesStep.structsW (DescribeLogDirsTopic35.erasesW version {})) : ErasesStep _ _) t
theorem DescribeLogDirsResult35.spends (version : Int16) (t : DescribeLogDirsResult35) : Spends (DescribeLogDirsResult35.decodeW version t) 13 1 :=
  (((SpendsStep.field .int16)
    |>.andThen (SpendsStep.field .string)
    |>.andThen (SpendsStep.structs ((DescribeLogDirsTopic35.spends version {}).mono (by decide) (Nat.le_refl _))) : SpendsStep _ _) t).mono (by decide) (by decide)
theorem DescribeLogDirsResult35.spends0 (version : Int16) (t : DescribeLogDirsResult35) : Spends (DescribeLogDirsResult35.decodeW version t) 0 1 :=
  (DescribeLogDirsResult35.spends version t).mono (Nat.zero_le _) (Nat.le_refl _)

/-- message/messages.gen.go:9415-9435 `DescribeLogDirsResponse.Decode`, with the steps it takes -/
def DescribeLogDirsResponse.decodeW (version : Int16) : DescribeLogDirsResponse → ADec DescribeLogDirsResponse :=
    ADec.field WDec.int32 (fun t x => { t with ThrottleTimeMs := x }) ;>>
    WDec.fieldStructs (DescribeLogDirsResult35.decodeW version {}) (·.Results) (fun t x => { t with Results := x })
theorem DescribeLogDirsResponse.erasesW (version : Int16) (t : DescribeLogDirsResponse) : Erases (DescribeLogDirsResponse.decodeW version t) (DescribeLogDirsResponse.decode version t) :=
  ((ErasesStep.field (.read _))
    |>.andThen (ErasesStep.structsW (DescribeLogDirsResult35.erasesW version {})) : ErasesStep _ _) t
theorem DescribeLogDirsResponse.spends (version : Int16) (t : DescribeLogDirsResponse) : Spends (DescribeLogDirsResponse.decodeW version t) 14 1 :=
  (((SpendsStep.field .int32)
    |>.andThen (SpendsStep.structs ((DescribeLogDirsResult35.spends version {}).mono (by decide) (Nat.le_refl _))) : SpendsStep _ _) t).mono (by decide) (by decide)
theorem DescribeLogDirsResponse.spends0 (version : Int16) (t : DescribeLogDirsResponse) : Spends (DescribeLogDirsResponse.decodeW version t) 0 1 :=
  (DescribeLogDirsResponse.spends version t).mono (Nat.zero_le _) (Nat.le_refl _)

/-- The structures of the DescribeLogDirs messages. -/
def workDescribeLogDirs : List (Σ M : MsgType, Int16 → M.T → ADec M.T) :=
  [⟨DescribeLogDirsRequest.type, DescribeLogDirsRequest.decodeW⟩,
   ⟨DescribableLogDirTopic35.type, DescribableLogDirTopic35.decodeW⟩,
   ⟨DescribeLogDirsResponse.type, DescribeLogDirsResponse.decodeW⟩,
   ⟨DescribeLogDirsResult35.type, DescribeLogDirsResult35.decodeW⟩,
   ⟨DescribeLogDirsTopic35.type, DescribeLogDirsTopic35.decodeW⟩,
   ⟨DescribeLogDirsPartition35.type, DescribeLogDirsPartition35.decodeW⟩]
theorem workDescribeLogDirs_erases : ∀ p ∈ workDescribeLogDirs, ∀ v t, Erases (p.2 v t) (p.1.decode v t) := by
  unfold workDescribeLogDirs
  simp only [List.forall_mem_cons]
  exact ⟨DescribeLogDirsRequest.erasesW, DescribableLogDirTopic35.erasesW, DescribeLogDirsResponse.erasesW, DescribeLogDirsResult35.erasesW, DescribeLogDirsTopic35.erasesW, DescribeLogDirsPartition35.erasesW, fun _ h => absurd h (by simp)⟩
theorem workDescribeLogDirs_spends : ∀ p ∈ workDescribeLogDirs, ∀ v t, Spends (p.2 v t) 0 1 := by
  unfold workDescribeLogDirs
  simp only [List.forall_mem_cons]
  exact ⟨DescribeLogDirsRequest.spends0, DescribableLogDirTopic35.spends0, DescribeLogDirsResponse.spends0, DescribeLogDirsResult35.spends0, DescribeLogDirsTopic35.spends0, DescribeLogDirsPartition35.spends0, fun _ h => absurd h (by simp)⟩

end Kafka.Msg
