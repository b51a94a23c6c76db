import Verif.Message.Work
import Verif.Gen.Model.ExpireDelegationToken
/-!
Generated by tools/gen_messages.py: steps taken by decoding the ExpireDelegationToken messages.
-/
namespace Kafka.Msg

/-- message/messages.gen.go:10167-10178 `ExpireDelegationTokenRequest.Decode`, with the steps it takes -/
def ExpireDelegationTokenRequest.decodeW (_version : Int16) : ExpireDelegationTokenRequest → ADec ExpireDelegationTokenRequest :=
    ADec.field WDec.bytes (fun t x => { t with Hmac := x }) ;>>
    ADec.field WDec.int64 (fun t x => { t with ExpiryTimePeriodMs := x })
theorem ExpireDelegationTokenRequest.erasesW (version : Int16) (t : ExpireDelegationTokenRequest) : Erases (ExpireDelegationTokenRequest.decodeW version t) (ExpireDelegationTokenRequest.decode version t) :=
  ((ErasesStep.field (.read _))
    |>.andThen (ErasesStep.field (.read _)) : ErasesStep _ _) t
theorem ExpireDelegationTokenRequest.spends (version : Int16) (t : ExpireDelegationTokenRequest) : Spends (ExpireDelegationTokenRequest.decodeW version t) 22 1 :=
  (((SpendsStep.field .bytes)
    |>.andThen (SpendsStep.field .int64) : SpendsStep _ _) t).mono (by decide) (by decide)
theorem ExpireDelegationTokenRequest.spends0 (version : Int16) (t : ExpireDelegationTokenRequest) : Spends (ExpireDelegationTokenRequest.decodeW version t) 0 1 :=
  (ExpireDelegationTokenRequest.spends version t).mono (Nat.zero_le _) (Nat.le_refl _)

/-- message/messages.gen.go:10204-10219 `ExpireDelegationTokenResponse.Decode`, with the steps it takes -/
def ExpireDelegationTokenResponse.decodeW (_version : Int16) : ExpireDelegationTokenResponse → ADec ExpireDelegationTokenResponse :=
    ADec.field WDec.int16 (fun t x => { t with ErrorCode := x }) ;>>
    ADec.field WDec.int64 (fun t x => { t with ExpiryTimestampMs := x }) ;>>
    ADec.field WDec.int32 (fun t x => { t with ThrottleTimeMs := x })
theorem ExpireDelegationTokenResponse.erasesW (version : Int16) (t : ExpireDelegationTokenResponse) : Erases (ExpireDelegationTokenResponse.decodeW version t) (ExpireDelegationTokenResponse.decode version t) :=
  ((ErasesStep.field (.read _))
    |>.andThen (ErasesStep.field (.read _))
    |>.andThen (ErasesStep.field (.read _)) : ErasesStep _ _) t
theorem ExpireDelegationTokenResponse.spends (version : Int16) (t : ExpireDelegationTokenResponse) : Spends (ExpireDelegationTokenResponse.decodeW version t) 25 1 :=
  (((SpendsStep.field .int16)
    |>.andThen (SpendsStep.field .int64)
    |>.andThen (SpendsStep.field .int32) : SpendsStep _ _) t).mono (by decide) (by decide)
theorem ExpireDelegationTokenResponse.spends0 (version : Int16) (t : ExpireDelegationTokenResponse) : Spends (ExpireDelegationTokenResponse.decodeW version t) 0 1 :=
  (ExpireDelegationTokenResponse.spends version t).mono (Nat.zero_le _) (Nat.le_refl _)

/-- The structures of the ExpireDelegationToken messages. -/
def workExpireDelegationToken : List (Σ M : MsgType, Int16 → M.T → ADec M.T) :=
  [⟨ExpireDelegationTokenRequest.type, ExpireDelegationTokenRequest.decodeW⟩,
   ⟨ExpireDelegationTokenResponse.type, ExpireDelegationTokenResponse.decodeW⟩]
theorem workExpireDelegationToken_erases : ∀ p ∈ workExpireDelegationToken, ∀ v t, Erases (p.2 v t) (p.1.decode v t) := by
  unfold workExpireDelegationToken
  simp only [List.forall_mem_cons]
  exact ⟨ExpireDelegationTokenRequest.erasesW, ExpireDelegationTokenResponse.erasesW, fun _ h => absurd h (by simp)⟩
theorem workExpireDelegationToken_spends : ∀ p ∈ workExpireDelegationToken, ∀ v t, Spends (p.2 v t) 0 1 := by
  unfold workExpireDelegationToken
  simp only [List.forall_mem_cons]
  exact ⟨ExpireDelegationTokenRequest.spends0, ExpireDelegationTokenResponse.spends0, fun _ h => absurd h (by simp)⟩

end Kafka.Msg
