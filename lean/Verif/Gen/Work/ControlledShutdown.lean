import Verif.Message.Work
import Verif.Gen.Model.ControlledShutdown
/-!
Generated by tools/gen_messages.py: steps taken by decoding the ControlledShutdown messages.
-/
namespace Kafka.Msg

/-- message/messages.gen.go:3188-3201 `ControlledShutdownRequest.Decode`, with the steps it takes -/
def ControlledShutdownRequest.decodeW (version : Int16) : ControlledShutdownRequest → ADec ControlledShutdownRequest :=
    ADec.field WDec.int32 (fun t x => { t with BrokerId := x }) ;>>
    ADec.onlyIf (version ≥ 2) (ADec.field WDec.int64 (fun t x => { t with BrokerEpoch := x }))
theorem ControlledShutdownRequest.erasesW (version : Int16) (t : ControlledShutdownRequest) : Erases (ControlledShutdownRequest.decodeW version t) (ControlledShutdownRequest.decode version t) :=
  ((ErasesStep.field (.read _))
    |>.andThen (ErasesStep.onlyIf (ErasesStep.field (.read _))) : ErasesStep _ _) t
theorem ControlledShutdownRequest.spends (version : Int16) (t : ControlledShutdownRequest) : Spends (ControlledShutdownRequest.decodeW version t) 7 1 :=
  (((SpendsStep.field .int32)
    |>.andThen (SpendsStep.onlyIf (fun _ => SpendsStep.field .int64)) : SpendsStep _ _) t).mono (by decide) (by decide)
theorem ControlledShutdownRequest.spends0 (version : Int16) (t : ControlledShutdownRequest) : Spends (ControlledShutdownRequest.decodeW version t) 0 1 :=
  (ControlledShutdownRequest.spends version t).mono (Nat.zero_le _) (Nat.le_refl _)

/-- message/messages.gen.go:3274-3285 `RemainingPartition7.Decode`, with the steps it takes -/
def RemainingPartition7.decodeW (_version : Int16) : RemainingPartition7 → ADec RemainingPartition7 :=
    ADec.field WDec.string (fun t x => { t with TopicName := x }) ;>>
    ADec.field WDec.int32 (fun t x => { t with PartitionIndex := x })
theorem RemainingPartition7.erasesW (version : Int16) (t : RemainingPartition7) : Erases (RemainingPartition7.decodeW version t) (RemainingPartition7.decode version t) :=
  ((ErasesStep.field .stringW)
    |>.andThen (ErasesStep.field (.read _)) : ErasesStep _ _) t
theorem RemainingPartition7.spends (version : Int16) (t : RemainingPartition7) : Spends (RemainingPartition7.decodeW version t) 10 1 :=
  (((SpendsStep.field .string)
    |>.andThen (SpendsStep.field .int32) : SpendsStep _ _) t).mono (by decide) (by decide)
theorem RemainingPartition7.spends0 (version : Int16) (t : RemainingPartition7) : Spends (RemainingPartition7.decodeW version t) 0 1 :=
  (RemainingPartition7.spends version t).mono (Nat.zero_le _) (Nat.le_refl _)

/-- message/messages.gen.go:3232-3252 `ControlledShutdownResponse.Decode`, with the steps it takes -/
def ControlledShutdownResponse.decodeW (version : Int16) : ControlledShutdownResponse → ADec ControlledShutdownResponse :=
    ADec.field WDec.int16 (fun t x => { t with ErrorCode := x }) ;>>
    WDec.fieldStructs (RemainingPartition7.decodeW version {}) (·.RemainingPartitions) (fun t x => { t with RemainingPartitions := x })
theorem ControlledShutdownResponse.erasesW (version : Int16) (t : ControlledShutdownResponse) : Erases (ControlledShutdownResponse.decodeW version t) (ControlledShutdownResponse.decode version t) :=
  ((ErasesStep.field (.read _))
    |>.andThen (ErasesStep.structsW (RemainingPartition7.erasesW version {})) : ErasesStep _ _) t
theorem ControlledShutdownResponse.spends (version : Int16) (t : ControlledShutdownResponse) : Spends (ControlledShutdownResponse.decodeW version t) 10 1 :=
  (((SpendsStep.field .int16)
    |>.andThen (SpendsStep.structs ((RemainingPartition7.spends version {}).mono (by decide) (Nat.le_refl _))) : SpendsStep _ _) t).mono (by decide) (by decide)
theorem ControlledShutdownResponse.spends0 (version : Int16) (t : ControlledShutdownResponse) : Spends (ControlledShutdownResponse.decodeW version t) 0 1 :=
  (ControlledShutdownResponse.spends version t).mono (Nat.zero_le _) (Nat.le_refl _)

/-- The structures of the ControlledShutdown messages. -/
def workControlledShutdown : List (Σ M : MsgType, Int16 → M.T → ADec M.T) :=
  [⟨ControlledShutdownRequest.type, ControlledShutdownRequest.decodeW⟩,
   ⟨ControlledShutdownResponse.type, ControlledShutdownResponse.decodeW⟩,
   ⟨RemainingPartition7.type, RemainingPartition7.decodeW⟩]
theorem workControlledShutdown_erases : ∀ p ∈ workControlledShutdown, ∀ v t, Erases (p.2 v t) (p.1.decode v t) := by
  unfold workControlledShutdown
  simp only [List.forall_mem_cons]
  exact ⟨ControlledShutdownRequest.erasesW, ControlledShutdownResponse.erasesW, RemainingPartition7.erasesW, fun _ h => absurd h (by simp)⟩
theorem workControlledShutdown_spends : ∀ p ∈ workControlledShutdown, ∀ v t, Spends (p.2 v t) 0 1 := by
  unfold workControlledShutdown
  simp only [List.forall_mem_cons]
  exact ⟨ControlledShutdownRequest.spends0, ControlledShutdownResponse.spends0, RemainingPartition7.spends0, fun _ h => absurd h (by simp)⟩

end Kafka.Msg
