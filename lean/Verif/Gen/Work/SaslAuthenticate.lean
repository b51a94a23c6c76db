import Verif.Message.Work
import Verif.Gen.Model.SaslAuthenticate
/-!
Generated by tools/gen_messages.py: steps taken by decoding the SaslAuthenticate messages.
-/
namespace Kafka.Msg

/-- message/messages.gen.go:9609-9616 `SaslAuthenticateRequest.Decode`, with the steps it takes -/
def SaslAuthenticateRequest.decodeW (_version : Int16) : SaslAuthenticateRequest → ADec SaslAuthenticateRequest :=
    ADec.field WDec.bytes (fun t x => { t with AuthBytes := x })
theorem SaslAuthenticateRequest.erasesW (version : Int16) (t : SaslAuthenticateRequest) : Erases (SaslAuthenticateRequest.decodeW version t) (SaslAuthenticateRequest.decode version t) :=
  (ErasesStep.field (.read _) : ErasesStep _ _) t
theorem SaslAuthenticateRequest.spends (version : Int16) (t : SaslAuthenticateRequest) : Spends (SaslAuthenticateRequest.decodeW version t) 7 1 :=
  ((SpendsStep.field .bytes : SpendsStep _ _) t).mono (by decide) (by decide)
theorem SaslAuthenticateRequest.spends0 (version : Int16) (t : SaslAuthenticateRequest) : Spends (SaslAuthenticateRequest.decodeW version t) 0 1 :=
  (SaslAuthenticateRequest.spends version t).mono (Nat.zero_le _) (Nat.le_refl _)

/-- message/messages.gen.go:9649-9670 `SaslAuthenticateResponse.Decode`, with the steps it takes -/
def SaslAuthenticateResponse.decodeW (version : Int16) : SaslAuthenticateResponse → ADec SaslAuthenticateResponse :=
    ADec.field WDec.int16 (fun t x => { t with ErrorCode := x }) ;>>
    ADec.field WDec.string (fun t x => { t with ErrorMessage := x }) ;>>
    ADec.field WDec.bytes (fun t x => { t with AuthBytes := x }) ;>>
    ADec.onlyIf (version ≥ 1) (ADec.field WDec.int64 (fun t x => { t with SessionLifetimeMs := x }))
theorem SaslAuthenticateResponse.erasesW (version : Int16) (t : SaslAuthenticateResponse) : Erases (SaslAuthenticateResponse.decodeW version t) (SaslAuthenticateResponse.decode version t) :=
  ((ErasesStep.field (.read _))
    |>.andThen (ErasesStep.field .stringW)
    |>.andThen (ErasesStep.field (.read _))
    |>.andThen (ErasesStep.onlyIf (ErasesStep.field (.read _))) : ErasesStep _ _) t
theorem SaslAuthenticateResponse.spends (version : Int16) (t : SaslAuthenticateResponse) : Spends (SaslAuthenticateResponse.decodeW version t) 13 1 :=
  (((SpendsStep.field .int16)
    |>.andThen (SpendsStep.field .string)
    |>.andThen (SpendsStep.field .bytes)
    |>.andThen (SpendsStep.onlyIf (fun _ => SpendsStep.field .int64)) : SpendsStep _ _) t).mono (by decide) (by decide)
theorem SaslAuthenticateResponse.spends0 (version : Int16) (t : SaslAuthenticateResponse) : Spends (SaslAuthenticateResponse.decodeW version t) 0 1 :=
  (SaslAuthenticateResponse.spends version t).mono (Nat.zero_le _) (Nat.le_refl _)

/-- The structures of the SaslAuthenticate messages. -/
def workSaslAuthenticate : List (Σ M : MsgType, Int16 → M.T → ADec M.T) :=
  [⟨SaslAuthenticateRequest.type, SaslAuthenticateRequest.decodeW⟩,
   ⟨SaslAuthenticateResponse.type, SaslAuthenticateResponse.decodeW⟩]
theorem workSaslAuthenticate_erases : ∀ p ∈ workSaslAuthenticate, ∀ v t, Erases (p.2 v t) (p.1.decode v t) := by
  unfold workSaslAuthenticate
  simp only [List.forall_mem_cons]
  exact ⟨SaslAuthenticateRequest.erasesW, SaslAuthenticateResponse.erasesW, fun _ h => absurd h (by simp)⟩
theorem workSaslAuthenticate_spends : ∀ p ∈ workSaslAuthenticate, ∀ v t, Spends (p.2 v t) 0 1 := by
  unfold workSaslAuthenticate
  simp only [List.forall_mem_cons]
  exact ⟨SaslAuthenticateRequest.spends0, SaslAuthenticateResponse.spends0, fun _ h => absurd h (by simp)⟩

end Kafka.Msg
