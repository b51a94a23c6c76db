import Verif.Message.Work
import Verif.Gen.Model.SaslHandshake
/-!
Generated by tools/gen_messages.py: steps taken by decoding the SaslHandshake messages.
-/
namespace Kafka.Msg

/-- message/messages.gen.go:5165-5172 `SaslHandshakeRequest.Decode`, with the steps it takes -/
def SaslHandshakeRequest.decodeW (_version : Int16) : SaslHandshakeRequest → ADec SaslHandshakeRequest :=
    ADec.field WDec.string (fun t x => { t with Mechanism := x })
theorem SaslHandshakeRequest.erasesW (version : Int16) (t : SaslHandshakeRequest) : Erases (SaslHandshakeRequest.decodeW version t) (SaslHandshakeRequest.decode version t) :=
  (ErasesStep.field .stringW : ErasesStep _ _) t
theorem SaslHandshakeRequest.spends (version : Int16) (t : SaslHandshakeRequest) : Spends (SaslHandshakeRequest.decodeW version t) 3 1 :=
  ((SpendsStep.field .string : SpendsStep _ _) t).mono (by decide) (by decide)
theorem SaslHandshakeRequest.spends0 (version : Int16) (t : SaslHandshakeRequest) : Spends (SaslHandshakeRequest.decodeW version t) 0 1 :=
  (SaslHandshakeRequest.spends version t).mono (Nat.zero_le _) (Nat.le_refl _)

/-- message/messages.gen.go:5195-5206 `SaslHandshakeResponse.Decode`, with the steps it takes -/
def SaslHandshakeResponse.decodeW (_version : Int16) : SaslHandshakeResponse → ADec SaslHandshakeResponse :=
    ADec.field WDec.int16 (fun t x => { t with ErrorCode := x }) ;>>
    ADec.field WDec.stringArray (fun t x => { t with Mechanisms := x })
theorem SaslHandshakeResponse.erasesW (version : Int16) (t : SaslHandshakeResponse) : Erases (SaslHandshakeResponse.decodeW version t) (SaslHandshakeResponse.decode version t) :=
  ((ErasesStep.field (.read _))
    |>.andThen (ErasesStep.field (.arrayOfW .stringW)) : ErasesStep _ _) t
theorem SaslHandshakeResponse.spends (version : Int16) (t : SaslHandshakeResponse) : Spends (SaslHandshakeResponse.decodeW version t) 10 1 :=
  (((SpendsStep.field .int16)
    |>.andThen (SpendsStep.field .stringArray) : SpendsStep _ _) t).mono (by decide) (by decide)
theorem SaslHandshakeResponse.spends0 (version : Int16) (t : SaslHandshakeResponse) : Spends (SaslHandshakeResponse.decodeW version t) 0 1 :=
  (SaslHandshakeResponse.spends version t).mono (Nat.zero_le _) (Nat.le_refl _)

/-- The structures of the SaslHandshake messages. -/
def workSaslHandshake : List (Σ M : MsgType, Int16 → M.T → ADec M.T) :=
  [⟨SaslHandshakeRequest.type, SaslHandshakeRequest.decodeW⟩,
   ⟨SaslHandshakeResponse.type, SaslHandshakeResponse.decodeW⟩]
theorem workSaslHandshake_erases : ∀ p ∈ workSaslHandshake, ∀ v t, Erases (p.2 v t) (p.1.decode v t) := by
  unfold workSaslHandshake
  simp only [List.forall_mem_cons]
  exact ⟨SaslHandshakeRequest.erasesW, SaslHandshakeResponse.erasesW, fun _ h => absurd h (by simp)⟩
theorem workSaslHandshake_spends : ∀ p ∈ workSaslHandshake, ∀ v t, Spends (p.2 v t) 0 1 := by
  unfold workSaslHandshake
  simp only [List.forall_mem_cons]
  exact ⟨SaslHandshakeRequest.spends0, SaslHandshakeResponse.spends0, fun _ h => absurd h (by simp)⟩

end Kafka.Msg
