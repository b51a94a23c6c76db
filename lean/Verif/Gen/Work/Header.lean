import Verif.Message.Work
import Verif.Gen.Model.Header
/-!
Generated by tools/gen_messages.py: steps taken by decoding the Header messages.
-/
namespace Kafka.Msg

/-- message/messages.gen.go:469-490 `RequestHeader.Decode`, with the steps it takes -/
def RequestHeader.decodeW (version : Int16) : RequestHeader → ADec RequestHeader :=
    ADec.field WDec.int16 (fun t x => { t with RequestApiKey := x }) ;>>
    ADec.field WDec.int16 (fun t x => { t with RequestApiVersion := x }) ;>>
    ADec.field WDec.int32 (fun t x => { t with CorrelationId := x }) ;>>
    ADec.onlyIf (version ≥ 1) (ADec.field WDec.string (fun t x => { t with ClientId := x }))
theorem RequestHeader.erasesW (version : Int16) (t : RequestHeader) : Erases (RequestHeader.decodeW version t) (RequestHeader.decode version t) :=
  ((ErasesStep.field (.read _))
    |>.andThen (ErasesStep.field (.read _))
    |>.andThen (ErasesStep.field (.read _))
    |>.andThen (ErasesStep.onlyIf (ErasesStep.field .stringW)) : ErasesStep _ _) t
theorem RequestHeader.spends (version : Int16) (t : RequestHeader) : Spends (RequestHeader.decodeW version t) 13 1 :=
  (((SpendsStep.field .int16)
    |>.andThen (SpendsStep.field .int16)
    |>.andThen (SpendsStep.field .int32)
    |>.andThen (SpendsStep.onlyIf (fun _ => SpendsStep.field .string)) : SpendsStep _ _) t).mono (by decide) (by decide)
theorem RequestHeader.spends0 (version : Int16) (t : RequestHeader) : Spends (RequestHeader.decodeW version t) 0 1 :=
  (RequestHeader.spends version t).mono (Nat.zero_le _) (Nat.le_refl _)

/-- message/messages.gen.go:510-517 `ResponseHeader.Decode`, with the steps it takes -/
def ResponseHeader.decodeW (_version : Int16) : ResponseHeader → ADec ResponseHeader :=
    ADec.field WDec.int32 (fun t x => { t with CorrelationId := x })
theorem ResponseHeader.erasesW (version : Int16) (t : ResponseHeader) : Erases (ResponseHeader.decodeW version t) (ResponseHeader.decode version t) :=
  (ErasesStep.field (.read _) : ErasesStep _ _) t
theorem ResponseHeader.spends (version : Int16) (t : ResponseHeader) : Spends (ResponseHeader.decodeW version t) 7 1 :=
  ((SpendsStep.field .int32 : SpendsStep _ _) t).mono (by decide) (by decide)
theorem ResponseHeader.spends0 (version : Int16) (t : ResponseHeader) : Spends (ResponseHeader.decodeW version t) 0 1 :=
  (ResponseHeader.spends version t).mono (Nat.zero_le _) (Nat.le_refl _)

/-- The structures of the Header messages. -/
def workHeader : List (Σ M : MsgType, Int16 → M.T → ADec M.T) :=
  [⟨RequestHeader.type, RequestHeader.decodeW⟩,
   ⟨ResponseHeader.type, ResponseHeader.decodeW⟩]
theorem workHeader_erases : ∀ p ∈ workHeader, ∀ v t, Erases (p.2 v t) (p.1.decode v t) := by
  unfold workHeader
  simp only [List.forall_mem_cons]
  exact ⟨RequestHeader.erasesW, ResponseHeader.erasesW, fun _ h => absurd h (by simp)⟩
theorem workHeader_spends : ∀ p ∈ workHeader, ∀ v t, Spends (p.2 v t) 0 1 := by
  unfold workHeader
  simp only [List.forall_mem_cons]
  exact ⟨RequestHeader.spends0, ResponseHeader.spends0, fun _ h => absurd h (by simp)⟩

end Kafka.Msg
