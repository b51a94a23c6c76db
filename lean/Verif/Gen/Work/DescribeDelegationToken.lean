import Verif.Message.Work
import Verif.Gen.Model.DescribeDelegationToken
/-!
Generated by tools/gen_messages.py: steps taken by decoding the DescribeDelegationToken messages.
-/
namespace Kafka.Msg

/-- message/messages.gen.go:10285-10296 `DescribeDelegationTokenOwner41.Decode`, with the steps it takes -/
def DescribeDelegationTokenOwner41.decodeW (_version : Int16) : DescribeDelegationTokenOwner41 → ADec DescribeDelegationTokenOwner41 :=
    ADec.field WDec.string (fun t x => { t with PrincipalType := x }) ;>>
    ADec.field WDec.string (fun t x => { t with PrincipalName := x })
theorem DescribeDelegationTokenOwner41.erasesW (version : Int16) (t : DescribeDelegationTokenOwner41) : Erases (DescribeDelegationTokenOwner41.decodeW version t) (DescribeDelegationTokenOwner41.decode version t) :=
  ((ErasesStep.field .stringW)
    |>.andThen (ErasesStep.field .stringW) : ErasesStep _ _) t
theorem DescribeDelegationTokenOwner41.spends (version : Int16) (t : DescribeDelegationTokenOwner41) : Spends (DescribeDelegationTokenOwner41.decodeW version t) 6 1 :=
  (((SpendsStep.field .string)
    |>.andThen (SpendsStep.field .string) : SpendsStep _ _) t).mono (by decide) (by decide)
theorem DescribeDelegationTokenOwner41.spends0 (version : Int16) (t : DescribeDelegationTokenOwner41) : Spends (DescribeDelegationTokenOwner41.decodeW version t) 0 1 :=
  (DescribeDelegationTokenOwner41.spends version t).mono (Nat.zero_le _) (Nat.le_refl _)

/-- message/messages.gen.go:10247-10263 `DescribeDelegationTokenRequest.Decode`, with the steps it takes -/
def DescribeDelegationTokenRequest.decodeW (version : Int16) : DescribeDelegationTokenRequest → ADec DescribeDelegationTokenRequest :=
    WDec.fieldStructs (DescribeDelegationTokenOwner41.decodeW version {}) (·.Owners) (fun t x => { t with Owners := x })
theorem DescribeDelegationTokenRequest.erasesW (version : Int16) (t : DescribeDelegationTokenRequest) : Erases (DescribeDelegationTokenRequest.decodeW version t) (DescribeDelegationTokenRequest.decode version t) :=
  (ErasesStep.structsW (DescribeDelegationTokenOwner41.erasesW version {}) : ErasesStep _ _) t
theorem DescribeDelegationTokenRequest.spends (version : Int16) (t : DescribeDelegationTokenRequest) : Spends (DescribeDelegationTokenRequest.decodeW version t) 7 1 :=
  ((SpendsStep.structs ((DescribeDelegationTokenOwner41.spends version {}).mono (by decide) (Nat.le_refl _)) : SpendsStep _ _) t).mono (by decide) (by decide)
theorem DescribeDelegationTokenRequest.spends0 (version : Int16) (t : DescribeDelegationTokenRequest) : Spends (DescribeDelegationTokenRequest.decodeW version t) 0 1 :=
  (DescribeDelegationTokenRequest.spends version t).mono (Nat.zero_le _) (Nat.le_refl _)

/-- message/messages.gen.go:10468-10479 `DescribedDelegationTokenRenewer41.Decode`, with the steps it takes -/
def DescribedDelegationTokenRenewer41.decodeW (_version : Int16) : DescribedDelegationTokenRenewer41 → ADec DescribedDelegationTokenRenewer41 :=
    ADec.field WDec.string (fun t x => { t with PrincipalType := x }) ;>>
    ADec.field WDec.string (fun t x => { t with PrincipalName := x })
theorem DescribedDelegationTokenRenewer41.erasesW (version : Int16) (t : DescribedDelegationTokenRenewer41) : Erases (DescribedDelegationTokenRenewer41.decodeW version t) (DescribedDelegationTokenRenewer41.decode version t) :=
  ((ErasesStep.field .stringW)
    |>.andThen (ErasesStep.field .stringW) : ErasesStep _ _) t
theorem DescribedDelegationTokenRenewer41.spends (version : Int16) (t : DescribedDelegationTokenRenewer41) : Spends (DescribedDelegationTokenRenewer41.decodeW version t) 6 1 :=
  (((SpendsStep.field .string)
    |>.andThen (SpendsStep.field .string) : SpendsStep _ _) t).mono (by decide) (by decide)
theorem DescribedDelegationTokenRenewer41.spends0 (version : Int16) (t : DescribedDelegationTokenRenewer41) : Spends (DescribedDelegationTokenRenewer41.decodeW version t) 0 1 :=
  (DescribedDelegationTokenRenewer41.spends version t).mono (Nat.zero_le _) (Nat.le_refl _)

/-- message/messages.gen.go:10402-10446 `DescribedDelegationToken41.Decode`, with the steps it takes -/
def DescribedDelegationToken41.decodeW (version : Int16) : DescribedDelegationToken41 → ADec DescribedDelegationToken41 :=
    ADec.field WDec.string (fun t x => { t with PrincipalType := x }) ;>>
    ADec.field WDec.string (fun t x => { t with PrincipalName := x }) ;>>
    ADec.field WDec.int64 (fun t x => { t with IssueTimestamp := x }) ;>>
    ADec.field WDec.int64 (fun t x => { t with ExpiryTimestamp := x }) ;>>
    ADec.field WDec.int64 (fun t x => { t with MaxTimestamp := x }) ;>>
    ADec.field WDec.string (fun t x => { t with TokenId := x }) ;>>
    ADec.field WDec.bytes (fun t x => { t with Hmac := x }) ;>>
    WDec.fieldStructs (DescribedDelegationTokenRenewer41.decodeW version {}) (·.Renewers) (fun t x => { t with Renewers := x })
theorem DescribedDelegationToken41.erasesW (version : Int16) (t : DescribedDelegationToken41) : Erases (DescribedDelegationToken41.decodeW version t) (DescribedDelegationToken41.decode version t) :=
  ((ErasesStep.field .stringW)
    |>.andThen (ErasesStep.field .stringW)
    |>.andThen (ErasesStep.field (.read _))
    |>.andThen (ErasesStep.field (.read _))
    |>.andThen (ErasesStep.field (.read _))
    |>.andThen (ErasesStep.field .stringW)
    |>.andThen (ErasesStep.field (.read _))
    |>.andThen (ErasesStep.structsW (DescribedDelegationTokenRenewer41.erasesW version {})) : ErasesStep _ _) t
theorem DescribedDelegationToken41.spends (version : Int16) (t : DescribedDelegationToken41) : Spends (DescribedDelegationToken41.decodeW version t) 68 1 :=
  (((SpendsStep.field .string)
    |>.andThen (SpendsStep.field .string)
    |>.andThen (SpendsStep.field .int64)
    |>.andThen (SpendsStep.field .int64)
    |>.andThen (SpendsStep.field .int64)
    |>.andThen (SpendsStep.field .string)
    |>.andThen (SpendsStep.field .bytes)
    |>.andThen (SpendsStep.structs ((DescribedDelegationTokenRenewer41.spends version {}).mono (by decide) (Nat.le_refl _))) : SpendsStep _ _) t).mono (by decide) (by decide)
theorem DescribedDelegationToken41.spends0 (version : Int16) (t : DescribedDelegationToken41) : Spends (DescribedDelegationToken41.decodeW version t) 0 1 :=
  (DescribedDelegationToken41.spends version t).mono (Nat.zero_le _) (Nat.le_refl _)

/-- message/messages.gen.go:10330-10354 `DescribeDelegationTokenResponse.Decode`, with the steps it takes -/
def DescribeDelegationTokenResponse.decodeW (version : Int16) : DescribeDelegationTokenResponse → ADec DescribeDelegationTokenResponse :=
    ADec.field WDec.int16 (fun t x => { t with ErrorCode := x }) ;>>
    WDec.fieldStructs (DescribedDelegationToken41.decodeW version {}) (·.Tokens) (fun t x => { t with Tokens := x }) ;>>
    ADec.field WDec.int32 (fun t x => { t with ThrottleTimeMs := x })
theorem DescribeDelegationTokenResponse.erasesW (version : Int16) (t : DescribeDelegationTokenResponse) : Erases (DescribeDelegationTokenResponse.decodeW version t) (DescribeDelegationTokenResponse.decode version t) :=
  ((ErasesStep.field (.read _))
    |>.andThen (ErasesStep.structsW (DescribedDelegationToken41.erasesW version {}))
    |>.andThen (ErasesStep.field (.read _)) : ErasesStep _ _) t
theorem DescribeDelegationTokenResponse.spends (version : Int16) (t : DescribeDelegationTokenResponse) : Spends (DescribeDelegationTokenResponse.decodeW version t) 17 1 :=
  (((SpendsStep.field .int16)
    |>.andThen (SpendsStep.structs ((DescribedDelegationToken41.spends version {}).mono (by decide) (Nat.le_refl _)))
    |>.andThen (SpendsStep.field .int32) : SpendsStep _ _) t).mono (by decide) (by decide)
theorem DescribeDelegationTokenResponse.spends0 (version : Int16) (t : DescribeDelegationTokenResponse) : Spends (DescribeDelegationTokenResponse.decodeW version t) 0 1 :=
  (DescribeDelegationTokenResponse.spends version t).mono (Nat.zero_le _) (Nat.le_refl _)

/-- The structures of the DescribeDelegationToken messages. -/
def workDescribeDelegationToken : List (Σ M : MsgType, Int16 → M.T → ADec M.T) :=
  [⟨DescribeDelegationTokenRequest.type, DescribeDelegationTokenRequest.decodeW⟩,
   ⟨DescribeDelegationTokenOwner41.type, DescribeDelegationTokenOwner41.decodeW⟩,
   ⟨DescribeDelegationTokenResponse.type, DescribeDelegationTokenResponse.decodeW⟩,
   ⟨DescribedDelegationToken41.type, DescribedDelegationToken41.decodeW⟩,
   ⟨DescribedDelegationTokenRenewer41.type, DescribedDelegationTokenRenewer41.decodeW⟩]
theorem workDescribeDelegationToken_erases : ∀ p ∈ workDescribeDelegationToken, ∀ v t, Erases (p.2 v t) (p.1.decode v t) := by
  unfold workDescribeDelegationToken
  simp only [List.forall_mem_cons]
  exact ⟨DescribeDelegationTokenRequest.erasesW, DescribeDelegationTokenOwner41.erasesW, DescribeDelegationTokenResponse.erasesW, DescribedDelegationToken41.erasesW, DescribedDelegationTokenRenewer41.erasesW, fun _ h => absurd h (by simp)⟩
theorem workDescribeDelegationToken_spends : ∀ p ∈ workDescribeDelegationToken, ∀ v t, Spends (p.2 v t) 0 1 := by
  unfold workDescribeDelegationToken
  simp only [List.forall_mem_cons]
  exact ⟨DescribeDelegationTokenRequest.spends0, DescribeDelegationTokenOwner41.spends0, DescribeDelegationTokenResponse.spends0, DescribedDelegationToken41.spends0, DescribedDelegationTokenRenewer41.spends0, fun _ h => absurd h (by simp)⟩

end Kafka.Msg
