import Verif.Message.Work
import Verif.Gen.Model.RenewDelegationToken
/-!
Generated by tools/gen_messages.py: steps taken by decoding the RenewDelegationToken messages.
-/
namespace Kafka.Msg

/-- message/messages.gen.go:10092-10103 `RenewDelegationTokenRequest.Decode`, with the steps it takes -/
def RenewDelegationTokenRequest.decodeW (_version : Int16) : RenewDelegationTokenRequest → ADec RenewDelegationTokenRequest :=
    ADec.field WDec.bytes (fun t x => { t with Hmac := x }) ;>>
    ADec.field WDec.int64 (fun t x => { t with RenewPeriodMs := x })
theorem RenewDelegationTokenRequest.erasesW (version : Int16) (t : RenewDelegationTokenRequest) : Erases (RenewDelegationTokenRequest.decodeW version t) (RenewDelegationTokenRequest.decode version t) :=
  ((ErasesStep.field (.read _))
    |>.andThen (ErasesStep.field (.read _)) : ErasesStep _ _) t
theorem RenewDelegationTokenRequest.spends (version : Int16) (t : RenewDelegationTokenRequest) : Spends (RenewDelegationTokenRequest.decodeW version t) 22 1 :=
  (((SpendsStep.field .bytes)
    |>.andThen (SpendsStep.field .int64) : SpendsStep _ _) t).mono (by decide) (by decide)
theorem RenewDelegationTokenRequest.spends0 (version : Int16) (t : RenewDelegationTokenRequest) : Spends (RenewDelegationTokenRequest.decodeW version t) 0 1 :=
  (RenewDelegationTokenRequest.spends version t).mono (Nat.zero_le _) (Nat.le_refl _)

/-- message/messages.gen.go:10129-10144 `RenewDelegationTokenResponse.Decode`, with the steps it takes -/
def RenewDelegationTokenResponse.decodeW (_version : Int16) : RenewDelegationTokenResponse → ADec RenewDelegationTokenResponse :=
    ADec.field WDec.int16 (fun t x => { t with ErrorCode := x }) ;>>
    ADec.field WDec.int64 (fun t x => { t with ExpiryTimestampMs := x }) ;>>
    ADec.field WDec.int32 (fun t x => { t with ThrottleTimeMs := x })
theorem RenewDelegationTokenResponse.erasesW (version : Int16) (t : RenewDelegationTokenResponse) : Erases (RenewDelegationTokenResponse.decodeW version t) (RenewDelegationTokenResponse.decode version t) :=
  ((ErasesStep.field (.read _))
    |>.andThen (ErasesStep.field (.read _))
    |>.andThen (ErasesStep.field (.read _)) : ErasesStep _ _) t
theorem RenewDelegationTokenResponse.spends (version : Int16) (t : RenewDelegationTokenResponse) : Spends (RenewDelegationTokenResponse.decodeW version t) 25 1 :=
  (((SpendsStep.field .int16)
    |>.andThen (SpendsStep.field .int64)
    |>.andThen (SpendsStep.field .int32) : SpendsStep _ _) t).mono (by decide) (by decide)
theorem RenewDelegationTokenResponse.spends0 (version : Int16) (t : RenewDelegationTokenResponse) : Spends (RenewDelegationTokenResponse.decodeW version t) 0 1 :=
  (RenewDelegationTokenResponse.spends version t).mono (Nat.zero_le _) (Nat.le_refl _)

/-- The structures of the RenewDelegationToken messages. -/
def workRenewDelegationToken : List (Σ M : MsgType, Int16 → M.T → ADec M.T) :=
  [⟨RenewDelegationTokenRequest.type, RenewDelegationTokenRequest.decodeW⟩,
   ⟨RenewDelegationTokenResponse.type, RenewDelegationTokenResponse.decodeW⟩]
theorem workRenewDelegationToken_erases : ∀ p ∈ workRenewDelegationToken, ∀ v t, Erases (p.2 v t) (p.1.decode v t) := by
  unfold workRenewDelegationToken
  simp only [List.forall_mem_cons]
  exact ⟨RenewDelegationTokenRequest.erasesW, RenewDelegationTokenResponse.erasesW, fun _ h => absurd h (by simp)⟩
theorem workRenewDelegationToken_spends : ∀ p ∈ workRenewDelegationToken, ∀ v t, Spends (p.2 v t) 0 1 := by
  unfold workRenewDelegationToken
  simp only [List.forall_mem_cons]
  exact ⟨RenewDelegationTokenRequest.spends0, RenewDelegationTokenResponse.spends0, fun _ h => absurd h (by simp)⟩

end Kafka.Msg
