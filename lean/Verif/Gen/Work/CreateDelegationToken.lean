import Verif.Message.Work
import Verif.Gen.Model.CreateDelegationToken
/-!
Generated by tools/gen_messages.py: steps taken by decoding the CreateDelegationToken messages.
-/
namespace Kafka.Msg

/-- message/messages.gen.go:9975-9986 `CreatableRenewers38.Decode`, with the steps it takes -/
def CreatableRenewers38.decodeW (_version : Int16) : CreatableRenewers38 → ADec CreatableRenewers38 :=
    ADec.field WDec.string (fun t x => { t with PrincipalType := x }) ;>>
    ADec.field WDec.string (fun t x => { t with PrincipalName := x })
theorem CreatableRenewers38.erasesW (version : Int16) (t : CreatableRenewers38) : Erases (CreatableRenewers38.decodeW version t) (CreatableRenewers38.decode version t) :=
  ((ErasesStep.field .stringW)
    |>.andThen (ErasesStep.field .stringW) : ErasesStep _ _) t
theorem CreatableRenewers38.spends (version : Int16) (t : CreatableRenewers38) : Spends (CreatableRenewers38.decodeW version t) 6 1 :=
  (((SpendsStep.field .string)
    |>.andThen (SpendsStep.field .string) : SpendsStep _ _) t).mono (by decide) (by decide)
theorem CreatableRenewers38.spends0 (version : Int16) (t : CreatableRenewers38) : Spends (CreatableRenewers38.decodeW version t) 0 1 :=
  (CreatableRenewers38.spends version t).mono (Nat.zero_le _) (Nat.le_refl _)

/-- message/messages.gen.go:9933-9953 `CreateDelegationTokenRequest.Decode`, with the steps it takes -/
def CreateDelegationTokenRequest.decodeW (version : Int16) : CreateDelegationTokenRequest → ADec CreateDelegationTokenRequest :=
    WDec.fieldStructs (CreatableRenewers38.decodeW version {}) (·.Renewers) (fun t x => { t with Renewers := x }) ;>>
    ADec.field WDec.int64 (fun t x => { t with MaxLifetimeMs := x })
theorem CreateDelegationTokenRequest.erasesW (version : Int16) (t : CreateDelegationTokenRequest) : Erases (CreateDelegationTokenRequest.decodeW version t) (CreateDelegationTokenRequest.decode version t) :=
  ((ErasesStep.structsW (CreatableRenewers38.erasesW version {}))
    |>.andThen (ErasesStep.field (.read _)) : ErasesStep _ _) t
theorem CreateDelegationTokenRequest.spends (version : Int16) (t : CreateDelegationTokenRequest) : Spends (CreateDelegationTokenRequest.decodeW version t) 22 1 :=
  (((SpendsStep.structs ((CreatableRenewers38.spends version {}).mono (by decide) (Nat.le_refl _)))
    |>.andThen (SpendsStep.field .int64) : SpendsStep _ _) t).mono (by decide) (by decide)
theorem CreateDelegationTokenRequest.spends0 (version : Int16) (t : CreateDelegationTokenRequest) : Spends (CreateDelegationTokenRequest.decodeW version t) 0 1 :=
  (CreateDelegationTokenRequest.spends version t).mono (Nat.zero_le _) (Nat.le_refl _)

/-- message/messages.gen.go:10030-10069 `CreateDelegationTokenResponse.Decode`, with the steps it takes -/
def CreateDelegationTokenResponse.decodeW (_version : Int16) : CreateDelegationTokenResponse → ADec CreateDelegationTokenResponse :=
    ADec.field WDec.int16 (fun t x => { t with ErrorCode := x }) ;>>
    ADec.field WDec.string (fun t x => { t with PrincipalType := x }) ;>>
    ADec.field WDec.string (fun t x => { t with PrincipalName := x }) ;>>
    ADec.field WDec.int64 (fun t x => { t with IssueTimestampMs := x }) ;>>
    ADec.field WDec.int64 (fun t x => { t with ExpiryTimestampMs := x }) ;>>
    ADec.field WDec.int64 (fun t x => { t with MaxTimestampMs := x }) ;>>
    ADec.field WDec.string (fun t x => { t with TokenId := x }) ;>>
    ADec.field WDec.bytes (fun t x => { t with Hmac := x }) ;>>
    ADec.field WDec.int32 (fun t x => { t with ThrottleTimeMs := x })
theorem CreateDelegationTokenResponse.erasesW (version : Int16) (t : CreateDelegationTokenResponse) : Erases (CreateDelegationTokenResponse.decodeW version t) (CreateDelegationTokenResponse.decode version t) :=
  ((ErasesStep.field (.read _))
    |>.andThen (ErasesStep.field .stringW)
    |>.andThen (ErasesStep.field .stringW)
    |>.andThen (ErasesStep.field (.read _))
    |>.andThen (ErasesStep.field (.read _))
    |>.andThen (ErasesStep.field (.read _))
    |>.andThen (ErasesStep.field .stringW)
    |>.andThen (ErasesStep.field (.read _))
    |>.andThen (ErasesStep.field (.read _)) : ErasesStep _ _) t
theorem CreateDelegationTokenResponse.spends (version : Int16) (t : CreateDelegationTokenResponse) : Spends (CreateDelegationTokenResponse.decodeW version t) 71 1 :=
  (((SpendsStep.field .int16)
    |>.andThen (SpendsStep.field .string)
    |>.andThen (SpendsStep.field .string)
    |>.andThen (SpendsStep.field .int64)
    |>.andThen (SpendsStep.field .int64)
    |>.andThen (SpendsStep.field .int64)
    |>.andThen (SpendsStep.field .string)
    |>.andThen (SpendsStep.field .bytes)
    |>.andThen (SpendsStep.field .int32) : SpendsStep _ _) t).mono (by decide) (by decide)
theorem CreateDelegationTokenResponse.spends0 (version : Int16) (t : CreateDelegationTokenResponse) : Spends (CreateDelegationTokenResponse.decodeW version t) 0 1 :=
  (CreateDelegationTokenResponse.spends version t).mono (Nat.zero_le _) (Nat.le_refl _)

/-- The structures of the CreateDelegationToken messages. -/
def workCreateDelegationToken : List (Σ M : MsgType, Int16 → M.T → ADec M.T) :=
  [⟨CreateDelegationTokenRequest.type, CreateDelegationTokenRequest.decodeW⟩,
   ⟨CreatableRenewers38.type, CreatableRenewers38.decodeW⟩,
   ⟨CreateDelegationTokenResponse.type, CreateDelegationTokenResponse.decodeW⟩]
theorem workCreateDelegationToken_erases : ∀ p ∈ workCreateDelegationToken, ∀ v t, Erases (p.2 v t) (p.1.decode v t) := by
  unfold workCreateDelegationToken
  simp only [List.forall_mem_cons]
  exact ⟨CreateDelegationTokenRequest.erasesW, CreatableRenewers38.erasesW, CreateDelegationTokenResponse.erasesW, fun _ h => absurd h (by simp)⟩
theorem workCreateDelegationToken_spends : ∀ p ∈ workCreateDelegationToken, ∀ v t, Spends (p.2 v t) 0 1 := by
  unfold workCreateDelegationToken
  simp only [List.forall_mem_cons]
  exact ⟨CreateDelegationTokenRequest.spends0, CreatableRenewers38.spends0, CreateDelegationTokenResponse.spends0, fun _ h => absurd h (by simp)⟩

end Kafka.Msg
