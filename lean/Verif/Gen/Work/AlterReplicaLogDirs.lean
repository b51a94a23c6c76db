import Verif.Message.Work
import Verif.Gen.Model.AlterReplicaLogDirs
/-!
Generated by tools/gen_messages.py: steps taken by decoding the AlterReplicaLogDirs messages.
-/
namespace Kafka.Msg

/-- message/messages.gen.go:9162-9173 `AlterReplicaLogDirTopic34.Decode`, with the steps it takes -/
def AlterReplicaLogDirTopic34.decodeW (_version : Int16) : AlterReplicaLogDirTopic34 → ADec AlterReplicaLogDirTopic34 :=
    ADec.field WDec.string (fun t x => { t with Name := x }) ;>>
    ADec.field WDec.int32Array (fun t x => { t with Partitions := x })
theorem AlterReplicaLogDirTopic34.erasesW (version : Int16) (t : AlterReplicaLogDirTopic34) : Erases (AlterReplicaLogDirTopic34.decodeW version t) (AlterReplicaLogDirTopic34.decode version t) :=
  ((ErasesStep.field .stringW)
    |>.andThen (ErasesStep.field (.arrayOfW (.read _))) : ErasesStep _ _) t
theorem AlterReplicaLogDirTopic34.spends (version : Int16) (t : AlterReplicaLogDirTopic34) : Spends (AlterReplicaLogDirTopic34.decodeW version t) 10 1 :=
  (((SpendsStep.field .string)
    |>.andThen (SpendsStep.field .int32Array) : SpendsStep _ _) t).mono (by decide) (by decide)
theorem AlterReplicaLogDirTopic34.spends0 (version : Int16) (t : AlterReplicaLogDirTopic34) : Spends (AlterReplicaLogDirTopic34.decodeW version t) 0 1 :=
  (AlterReplicaLogDirTopic34.spends version t).mono (Nat.zero_le _) (Nat.le_refl _)

/-- message/messages.gen.go:9120-9140 `AlterReplicaLogDir34.Decode`, with the steps it takes -/
def AlterReplicaLogDir34.decodeW (version : Int16) : AlterReplicaLogDir34 → ADec AlterReplicaLogDir34 :=
    ADec.field WDec.string (fun t x => { t with Path := x }) ;>>
    WDec.fieldStructs (AlterReplicaLogDirTopic34.decodeW version {}) (·.Topics) (fun t x => { t with Topics := x })
theorem AlterReplicaLogDir34.erasesW (version : Int16) (t : AlterReplicaLogDir34) : Erases (AlterReplicaLogDir34.decodeW version t) (AlterReplicaLogDir34.decode version t) :=
  ((ErasesStep.field .stringW)
    |>.andThen (ErasesStep.structsW (AlterReplicaLogDirTopic34.erasesW version {})) : ErasesStep _ _) t
theorem AlterReplicaLogDir34.spends (version : Int16) (t : AlterReplicaLogDir34) : Spends (AlterReplicaLogDir34.decodeW version t) 10 1 :=
  (((SpendsStep.field .string)
    |>.andThen (SpendsStep.structs ((AlterReplicaLogDirTopic34.spends version {}).mono (by decide) (Nat.le_refl _))) : SpendsStep _ _) t).mono (by decide) (by decide)
theorem AlterReplicaLogDir34.spends0 (version : Int16) (t : AlterReplicaLogDir34) : Spends (AlterReplicaLogDir34.decodeW version t) 0 1 :=
  (AlterReplicaLogDir34.spends version t).mono (Nat.zero_le _) (Nat.le_refl _)

/-- message/messages.gen.go:9074-9090 `AlterReplicaLogDirsRequest.Decode`, with the steps it takes -/
def AlterReplicaLogDirsRequest.decodeW (version : Int16) : AlterReplicaLogDirsRequest → ADec AlterReplicaLogDirsRequest :=
    WDec.fieldStructs (AlterReplicaLogDir34.decodeW version {}) (·.Dirs) (fun t x => { t with Dirs := x })
theorem AlterReplicaLogDirsRequest.erasesW (version : Int16) (t : AlterReplicaLogDirsRequest) : Erases (AlterReplicaLogDirsRequest.decodeW version t) (AlterReplicaLogDirsRequest.decode version t) :=
  (ErasesStep.structsW (AlterReplicaLogDir34.erasesW version {}) : ErasesStep _ _) t
theorem AlterReplicaLogDirsRequest.spends (version : Int16) (t : AlterReplicaLogDirsRequest) : Spends (AlterReplicaLogDirsRequest.decodeW version t) 7 1 :=
  ((SpendsStep.structs ((AlterReplicaLogDir34.spends version {}).mono (by decide) (Nat.le_refl _)) : SpendsStep _ _) t).mono (by decide) (by decide)
theorem AlterReplicaLogDirsRequest.spends0 (version : Int16) (t : AlterReplicaLogDirsRequest) : Spends (AlterReplicaLogDirsRequest.decodeW version t) 0 1 :=
  (AlterReplicaLogDirsRequest.spends version t).mono (Nat.zero_le _) (Nat.le_refl _)

/-- message/messages.gen.go:9296-9307 `AlterReplicaLogDirPartitionResult34.Decode`, with the steps it takes -/
def AlterReplicaLogDirPartitionResult34.decodeW (_version : Int16) : AlterReplicaLogDirPartitionResult34 → ADec AlterReplicaLogDirPartitionResult34 :=
    ADec.field WDec.int32 (fun t x => { t with PartitionIndex := x }) ;>>
    ADec.field WDec.int16 (fun t x => { t with ErrorCode := x })
theorem AlterReplicaLogDirPartitionResult34.erasesW (version : Int16) (t : AlterReplicaLogDirPartitionResult34) : Erases (AlterReplicaLogDirPartitionResult34.decodeW version t) (AlterReplicaLogDirPartitionResult34.decode version t) :=
  ((ErasesStep.field (.read _))
    |>.andThen (ErasesStep.field (.read _)) : ErasesStep _ _) t
theorem AlterReplicaLogDirPartitionResult34.spends (version : Int16) (t : AlterReplicaLogDirPartitionResult34) : Spends (AlterReplicaLogDirPartitionResult34.decodeW version t) 10 1 :=
  (((SpendsStep.field .int32)
    |>.andThen (SpendsStep.field .int16) : SpendsStep _ _) t).mono (by decide) (by decide)
theorem AlterReplicaLogDirPartitionResult34.spends0 (version : Int16) (t : AlterReplicaLogDirPartitionResult34) : Spends (AlterReplicaLogDirPartitionResult34.decodeW version t) 0 1 :=
  (AlterReplicaLogDirPartitionResult34.spends version t).mono (Nat.zero_le _) (Nat.le_refl _)

/-- message/messages.gen.go:9254-9274 `AlterReplicaLogDirTopicResult34.Decode`, with the steps it takes -/
def AlterReplicaLogDirTopicResult34.decodeW (version : Int16) : AlterReplicaLogDirTopicResult34 → ADec AlterReplicaLogDirTopicResult34 :=
    ADec.field WDec.string (fun t x => { t with TopicName := x }) ;>>
    WDec.fieldStructs (AlterReplicaLogDirPartitionResult34.decodeW version {}) (·.Partitions) (fun t x => { t with Partitions := x })
theorem AlterReplicaLogDirTopicResult34.erasesW (version : Int16) (t : AlterReplicaLogDirTopicResult34) : Erases (AlterReplicaLogDirTopicResult34.decodeW version t) (AlterReplicaLogDirTopicResult34.decode version t) :=
  ((ErasesStep.field .stringW)
    |>.andThen (ErasesStep.structsW (AlterReplicaLogDirPartitionResult34.erasesW version {})) : ErasesStep _ _) t
theorem AlterReplicaLogDirTopicResult34.spends (version : Int16) (t : AlterReplicaLogDirTopicResult34) : Spends (AlterReplicaLogDirTopicResult34.decodeW version t) 10 1 :=
  (((SpendsStep.field .string)
    |>.andThen (SpendsStep.structs ((AlterReplicaLogDirPartitionResult34.spends version {}).mono (by decide) (Nat.le_refl _))) : SpendsStep _ _) t).mono (by decide) (by decide)
theorem AlterReplicaLogDirTopicResult34.spends0 (version : Int16) (t : AlterReplicaLogDirTopicResult34) : Spends (AlterReplicaLogDirTopicResult34.decodeW version t) 0 1 :=
  (AlterReplicaLogDirTopicResult34.spends version t).mono (Nat.zero_le _) (Nat.le_refl _)

/-- message/messages.gen.go:9204-9224 `AlterReplicaLogDirsResponse.Decode`, with the steps it takes -/
def AlterReplicaLogDirsResponse.decodeW (version : Int16) : AlterReplicaLogDirsResponse → ADec AlterReplicaLogDirsResponse :=
    ADec.field WDec.int32 (fun t x => { t with ThrottleTimeMs := x }) ;>>
    WDec.fieldStructs (AlterReplicaLogDirTopicResult34.decodeW version {}) (·.Results) (fun t x => { t with Results := x })
theorem AlterReplicaLogDirsResponse.erasesW (version : Int16) (t : AlterReplicaLogDirsResponse) : Erases (AlterReplicaLogDirsResponse.decodeW version t) (AlterReplicaLogDirsResponse.decode version t) :=
  ((ErasesStep.field (.read _))
    |>.andThen (ErasesStep.structsW (AlterReplicaLogDirTopicResult34.erasesW version {})) : ErasesStep _ _) t
theorem AlterReplicaLogDirsResponse.spends (version : Int16) (t : AlterReplicaLogDirsResponse) : Spends (AlterReplicaLogDirsResponse.decodeW version t) 14 1 :=
  (((SpendsStep.field .int32)
    |>.andThen (SpendsStep.structs ((AlterReplicaLogDirTopicResult34.spends version {}).mono (by decide) (Nat.le_refl _))) : SpendsStep _ _) t).mono (by decide) (by decide)
theorem AlterReplicaLogDirsResponse.spends0 (version : Int16) (t : AlterReplicaLogDirsResponse) : Spends (AlterReplicaLogDirsResponse.decodeW version t) 0 1 :=
  (AlterReplicaLogDirsResponse.spends version t).mono (Nat.zero_le _) (Nat.le_refl _)

/-- The structures of the AlterReplicaLogDirs messages. -/
def workAlterReplicaLogDirs : List (Σ M : MsgType, Int16 → M.T → ADec M.T) :=
  [⟨AlterReplicaLogDirsRequest.type, AlterReplicaLogDirsRequest.decodeW⟩,
   ⟨AlterReplicaLogDir34.type, AlterReplicaLogDir34.decodeW⟩,
   ⟨AlterReplicaLogDirTopic34.type, AlterReplicaLogDirTopic34.decodeW⟩,
   ⟨AlterReplicaLogDirsResponse.type, AlterReplicaLogDirsResponse.decodeW⟩,
   ⟨AlterReplicaLogDirTopicResult34.type, AlterReplicaLogDirTopicResult34.decodeW⟩,
   ⟨AlterReplicaLogDirPartitionResult34.type, AlterReplicaLogDirPartitionResult34.decodeW⟩]
theorem workAlterReplicaLogDirs_erases : ∀ p ∈ workAlterReplicaLogDirs, ∀ v t, Erases (p.2 v t) (p.1.decode v t) := by
  unfold workAlterReplicaLogDirs
  simp only [List.forall_mem_cons]
  exact ⟨AlterReplicaLogDirsRequest.erasesW, AlterReplicaLogDir34.erasesW, AlterReplicaLogDirTopic34.erasesW, AlterReplicaLogDirsResponse.erasesW, AlterReplicaLogDirTopicResult34.erasesW, AlterReplicaLogDirPartitionResult34.erasesW, fun _ h => absurd h (by simp)⟩
theorem workAlterReplicaLogDirs_spends : ∀ p ∈ workAlterReplicaLogDirs, ∀ v t, Spends (p.2 v t) 0 1 := by
  unfold workAlterReplicaLogDirs
  simp only [List.forall_mem_cons]
  exact ⟨AlterReplicaLogDirsRequest.spends0, AlterReplicaLogDir34.spends0, AlterReplicaLogDirTopic34.spends0, AlterReplicaLogDirsResponse.spends0, AlterReplicaLogDirTopicResult34.spends0, AlterReplicaLogDirPartitionResult34.spends0, fun _ h => absurd h (by simp)⟩

end Kafka.Msg
