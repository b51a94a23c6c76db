import Verif.Message.Work
import Verif.Gen.Model.AddOffsetsToTxn
/-!
Generated by tools/gen_messages.py: steps taken by decoding the AddOffsetsToTxn messages.
-/
namespace Kafka.Msg

/-- message/messages.gen.go:6885-6904 `AddOffsetsToTxnRequest.Decode`, with the steps it takes -/
def AddOffsetsToTxnRequest.decodeW (_version : Int16) : AddOffsetsToTxnRequest → ADec AddOffsetsToTxnRequest :=
    ADec.field WDec.string (fun t x => { t with TransactionalId := x }) ;>>
    ADec.field WDec.int64 (fun t x => { t with ProducerId := x }) ;>>
    ADec.field WDec.int16 (fun t x => { t with ProducerEpoch := x }) ;>>
    ADec.field WDec.string (fun t x => { t with GroupId := x })
theorem AddOffsetsToTxnRequest.erasesW (version : Int16) (t : AddOffsetsToTxnRequest) : Erases (AddOffsetsToTxnRequest.decodeW version t) (AddOffsetsToTxnRequest.decode version t) :=
  ((ErasesStep.field .stringW)
    |>.andThen (ErasesStep.field (.read _))
    |>.andThen (ErasesStep.field (.read _))
    |>.andThen (ErasesStep.field .stringW) : ErasesStep _ _) t
theorem AddOffsetsToTxnRequest.spends (version : Int16) (t : AddOffsetsToTxnRequest) : Spends (AddOffsetsToTxnRequest.decodeW version t) 24 1 :=
  (((SpendsStep.field .string)
    |>.andThen (SpendsStep.field .int64)
    |>.andThen (SpendsStep.field .int16)
    |>.andThen (SpendsStep.field .string) : SpendsStep _ _) t).mono (by decide) (by decide)
theorem AddOffsetsToTxnRequest.spends0 (version : Int16) (t : AddOffsetsToTxnRequest) : Spends (AddOffsetsToTxnRequest.decodeW version t) 0 1 :=
  (AddOffsetsToTxnRequest.spends version t).mono (Nat.zero_le _) (Nat.le_refl _)

/-- message/messages.gen.go:6927-6938 `AddOffsetsToTxnResponse.Decode`, with the steps it takes -/
def AddOffsetsToTxnResponse.decodeW (_version : Int16) : AddOffsetsToTxnResponse → ADec AddOffsetsToTxnResponse :=
    ADec.field WDec.int32 (fun t x => { t with ThrottleTimeMs := x }) ;>>
    ADec.field WDec.int16 (fun t x => { t with ErrorCode := x })
theorem AddOffsetsToTxnResponse.erasesW (version : Int16) (t : AddOffsetsToTxnResponse) : Erases (AddOffsetsToTxnResponse.decodeW version t) (AddOffsetsToTxnResponse.decode version t) :=
  ((ErasesStep.field (.read _))
    |>.andThen (ErasesStep.field (.read _)) : ErasesStep _ _) t
theorem AddOffsetsToTxnResponse.spends (version : Int16) (t : AddOffsetsToTxnResponse) : Spends (AddOffsetsToTxnResponse.decodeW version t) 10 1 :=
  (((SpendsStep.field .int32)
    |>.andThen (SpendsStep.field .int16) : SpendsStep _ _) t).mono (by decide) (by decide)
theorem AddOffsetsToTxnResponse.spends0 (version : Int16) (t : AddOffsetsToTxnResponse) : Spends (AddOffsetsToTxnResponse.decodeW version t) 0 1 :=
  (AddOffsetsToTxnResponse.spends version t).mono (Nat.zero_le _) (Nat.le_refl _)

/-- The structures of the AddOffsetsToTxn messages. -/
def workAddOffsetsToTxn : List (Σ M : MsgType, Int16 → M.T → ADec M.T) :=
  [⟨AddOffsetsToTxnRequest.type, AddOffsetsToTxnRequest.decodeW⟩,
   ⟨AddOffsetsToTxnResponse.type, AddOffsetsToTxnResponse.decodeW⟩]
theorem workAddOffsetsToTxn_erases : ∀ p ∈ workAddOffsetsToTxn, ∀ v t, Erases (p.2 v t) (p.1.decode v t) := by
  unfold workAddOffsetsToTxn
  simp only [List.forall_mem_cons]
  exact ⟨AddOffsetsToTxnRequest.erasesW, AddOffsetsToTxnResponse.erasesW, fun _ h => absurd h (by simp)⟩
theorem workAddOffsetsToTxn_spends : ∀ p ∈ workAddOffsetsToTxn, ∀ v t, Spends (p.2 v t) 0 1 := by
  unfold workAddOffsetsToTxn
  simp only [List.forall_mem_cons]
  exact ⟨AddOffsetsToTxnRequest.spends0, AddOffsetsToTxnResponse.spends0, fun _ h => absurd h (by simp)⟩

end Kafka.Msg
