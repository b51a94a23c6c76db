import Verif.Message.Work
import Verif.Gen.Model.EndTxn
/-!
Generated by tools/gen_messages.py: steps taken by decoding the EndTxn messages.
-/
namespace Kafka.Msg

/-- message/messages.gen.go:6967-6986 `EndTxnRequest.Decode`, with the steps it takes -/
def EndTxnRequest.decodeW (_version : Int16) : EndTxnRequest → ADec EndTxnRequest :=
    ADec.field WDec.string (fun t x => { t with TransactionalId := x }) ;>>
    ADec.field WDec.int64 (fun t x => { t with ProducerId := x }) ;>>
    ADec.field WDec.int16 (fun t x => { t with ProducerEpoch := x }) ;>>
    ADec.field WDec.bool (fun t x => { t with Committed := x })
theorem EndTxnRequest.erasesW (version : Int16) (t : EndTxnRequest) : Erases (EndTxnRequest.decodeW version t) (EndTxnRequest.decode version t) :=
  ((ErasesStep.field .stringW)
    |>.andThen (ErasesStep.field (.read _))
    |>.andThen (ErasesStep.field (.read _))
    |>.andThen (ErasesStep.field (.read _)) : ErasesStep _ _) t
theorem EndTxnRequest.spends (version : Int16) (t : EndTxnRequest) : Spends (EndTxnRequest.decodeW version t) 22 1 :=
  (((SpendsStep.field .string)
    |>.andThen (SpendsStep.field .int64)
    |>.andThen (SpendsStep.field .int16)
    |>.andThen (SpendsStep.field .bool) : SpendsStep _ _) t).mono (by decide) (by decide)
theorem EndTxnRequest.spends0 (version : Int16) (t : EndTxnRequest) : Spends (EndTxnRequest.decodeW version t) 0 1 :=
  (EndTxnRequest.spends version t).mono (Nat.zero_le _) (Nat.le_refl _)

/-- message/messages.gen.go:7009-7020 `EndTxnResponse.Decode`, with the steps it takes -/
def EndTxnResponse.decodeW (_version : Int16) : EndTxnResponse → ADec EndTxnResponse :=
    ADec.field WDec.int32 (fun t x => { t with ThrottleTimeMs := x }) ;>>
    ADec.field WDec.int16 (fun t x => { t with ErrorCode := x })
theorem EndTxnResponse.erasesW (version : Int16) (t : EndTxnResponse) : Erases (EndTxnResponse.decodeW version t) (EndTxnResponse.decode version t) :=
  ((ErasesStep.field (.read _))
    |>.andThen (ErasesStep.field (.read _)) : ErasesStep _ _) t
theorem EndTxnResponse.spends (version : Int16) (t : EndTxnResponse) : Spends (EndTxnResponse.decodeW version t) 10 1 :=
  (((SpendsStep.field .int32)
    |>.andThen (SpendsStep.field .int16) : SpendsStep _ _) t).mono (by decide) (by decide)
theorem EndTxnResponse.spends0 (version : Int16) (t : EndTxnResponse) : Spends (EndTxnResponse.decodeW version t) 0 1 :=
  (EndTxnResponse.spends version t).mono (Nat.zero_le _) (Nat.le_refl _)

/-- The structures of the EndTxn messages. -/
def workEndTxn : List (Σ M : MsgType, Int16 → M.T → ADec M.T) :=
  [⟨EndTxnRequest.type, EndTxnRequest.decodeW⟩,
   ⟨EndTxnResponse.type, EndTxnResponse.decodeW⟩]
theorem workEndTxn_erases : ∀ p ∈ workEndTxn, ∀ v t, Erases (p.2 v t) (p.1.decode v t) := by
  unfold workEndTxn
  simp only [List.forall_mem_cons]
  exact ⟨EndTxnRequest.erasesW, EndTxnResponse.erasesW, fun _ h => absurd h (by simp)⟩
theorem workEndTxn_spends : ∀ p ∈ workEndTxn, ∀ v t, Spends (p.2 v t) 0 1 := by
  unfold workEndTxn
  simp only [List.forall_mem_cons]
  exact ⟨EndTxnRequest.spends0, EndTxnResponse.spends0, fun _ h => absurd h (by simp)⟩

end Kafka.Msg
