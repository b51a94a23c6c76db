import Verif.Message.Work
import Verif.Gen.Model.InitProducerId
/-!
Generated by tools/gen_messages.py: steps taken by decoding the InitProducerId messages.
-/
namespace Kafka.Msg

/-- message/messages.gen.go:6252-6263 `InitProducerIdRequest.Decode`, with the steps it takes -/
def InitProducerIdRequest.decodeW (_version : Int16) : InitProducerIdRequest → ADec InitProducerIdRequest :=
    ADec.field WDec.string (fun t x => { t with TransactionalId := x }) ;>>
    ADec.field WDec.int32 (fun t x => { t with TransactionTimeoutMs := x })
theorem InitProducerIdRequest.erasesW (version : Int16) (t : InitProducerIdRequest) : Erases (InitProducerIdRequest.decodeW version t) (InitProducerIdRequest.decode version t) :=
  ((ErasesStep.field .stringW)
    |>.andThen (ErasesStep.field (.read _)) : ErasesStep _ _) t
theorem InitProducerIdRequest.spends (version : Int16) (t : InitProducerIdRequest) : Spends (InitProducerIdRequest.decodeW version t) 10 1 :=
  (((SpendsStep.field .string)
    |>.andThen (SpendsStep.field .int32) : SpendsStep _ _) t).mono (by decide) (by decide)
theorem InitProducerIdRequest.spends0 (version : Int16) (t : InitProducerIdRequest) : Spends (InitProducerIdRequest.decodeW version t) 0 1 :=
  (InitProducerIdRequest.spends version t).mono (Nat.zero_le _) (Nat.le_refl _)

/-- message/messages.gen.go:6292-6311 `InitProducerIdResponse.Decode`, with the steps it takes -/
def InitProducerIdResponse.decodeW (_version : Int16) : InitProducerIdResponse → ADec InitProducerIdResponse :=
    ADec.field WDec.int32 (fun t x => { t with ThrottleTimeMs := x }) ;>>
    ADec.field WDec.int16 (fun t x => { t with ErrorCode := x }) ;>>
    ADec.field WDec.int64 (fun t x => { t with ProducerId := x }) ;>>
    ADec.field WDec.int16 (fun t x => { t with ProducerEpoch := x })
theorem InitProducerIdResponse.erasesW (version : Int16) (t : InitProducerIdResponse) : Erases (InitProducerIdResponse.decodeW version t) (InitProducerIdResponse.decode version t) :=
  ((ErasesStep.field (.read _))
    |>.andThen (ErasesStep.field (.read _))
    |>.andThen (ErasesStep.field (.read _))
    |>.andThen (ErasesStep.field (.read _)) : ErasesStep _ _) t
theorem InitProducerIdResponse.spends (version : Int16) (t : InitProducerIdResponse) : Spends (InitProducerIdResponse.decodeW version t) 28 1 :=
  (((SpendsStep.field .int32)
    |>.andThen (SpendsStep.field .int16)
    |>.andThen (SpendsStep.field .int64)
    |>.andThen (SpendsStep.field .int16) : SpendsStep _ _) t).mono (by decide) (by decide)
theorem InitProducerIdResponse.spends0 (version : Int16) (t : InitProducerIdResponse) : Spends (InitProducerIdResponse.decodeW version t) 0 1 :=
  (InitProducerIdResponse.spends version t).mono (Nat.zero_le _) (Nat.le_refl _)

/-- The structures of the InitProducerId messages. -/
def workInitProducerId : List (Σ M : MsgType, Int16 → M.T → ADec M.T) :=
  [⟨InitProducerIdRequest.type, InitProducerIdRequest.decodeW⟩,
   ⟨InitProducerIdResponse.type, InitProducerIdResponse.decodeW⟩]
theorem workInitProducerId_erases : ∀ p ∈ workInitProducerId, ∀ v t, Erases (p.2 v t) (p.1.decode v t) := by
  unfold workInitProducerId
  simp only [List.forall_mem_cons]
  exact ⟨InitProducerIdRequest.erasesW, InitProducerIdResponse.erasesW, fun _ h => absurd h (by simp)⟩
theorem workInitProducerId_spends : ∀ p ∈ workInitProducerId, ∀ v t, Spends (p.2 v t) 0 1 := by
  unfold workInitProducerId
  simp only [List.forall_mem_cons]
  exact ⟨InitProducerIdRequest.spends0, InitProducerIdResponse.spends0, fun _ h => absurd h (by simp)⟩

end Kafka.Msg
