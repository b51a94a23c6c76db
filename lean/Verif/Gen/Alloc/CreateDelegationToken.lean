import Verif.Message.AllocLemmas
import Verif.Gen.Model.CreateDelegationToken
/-!
Generated by tools/gen_messages.py: memory asked for by decoding the CreateDelegationToken messages.
-/
namespace Kafka.Msg

/-- message/messages.gen.go:9975-9986 `CreatableRenewers38.Decode`, with the memory it asks for -/
def CreatableRenewers38.decodeA (_version : Int16) : CreatableRenewers38 → ADec CreatableRenewers38 :=
    ADec.field ADec.string (fun t x => { t with PrincipalType := x }) ;>>
    ADec.field ADec.string (fun t x => { t with PrincipalName := x })
theorem CreatableRenewers38.erases (version : Int16) (t : CreatableRenewers38) : Erases (CreatableRenewers38.decodeA version t) (CreatableRenewers38.decode version t) :=
  ((ErasesStep.field .string)
    |>.andThen (ErasesStep.field .string) : ErasesStep _ _) t
theorem CreatableRenewers38.within (version : Int16) (t : CreatableRenewers38) : Within (CreatableRenewers38.decodeA version t) 4 0 :=
  (((WithinStep.field .string)
    |>.andThen (WithinStep.field .string) : WithinStep _ _ _) t).mono (by decide) (by decide)

/-- message/messages.gen.go:9933-9953 `CreateDelegationTokenRequest.Decode`, with the memory it asks for -/
def CreateDelegationTokenRequest.decodeA (version : Int16) : CreateDelegationTokenRequest → ADec CreateDelegationTokenRequest :=
    ADec.fieldStructs (CreatableRenewers38.decodeA version {}) (·.Renewers) (fun t x => { t with Renewers := x }) ;>>
    ADec.field ADec.int64 (fun t x => { t with MaxLifetimeMs := x })
theorem CreateDelegationTokenRequest.erases (version : Int16) (t : CreateDelegationTokenRequest) : Erases (CreateDelegationTokenRequest.decodeA version t) (CreateDelegationTokenRequest.decode version t) :=
  ((ErasesStep.structs (CreatableRenewers38.erases version {}))
    |>.andThen (ErasesStep.field (.free _)) : ErasesStep _ _) t
theorem CreateDelegationTokenRequest.within (version : Int16) (t : CreateDelegationTokenRequest) : Within (CreateDelegationTokenRequest.decodeA version t) 12 1 :=
  (((WithinStep.structs ((CreatableRenewers38.within version {}).mono (by decide) (Nat.le_refl _)))
    |>.andThen (WithinStep.field .int64) : WithinStep _ _ _) t).mono (by decide) (by decide)

/-- message/messages.gen.go:10030-10069 `CreateDelegationTokenResponse.Decode`, with the memory it asks for -/
def CreateDelegationTokenResponse.decodeA (_version : Int16) : CreateDelegationTokenResponse → ADec CreateDelegationTokenResponse :=
    ADec.field ADec.int16 (fun t x => { t with ErrorCode := x }) ;>>
    ADec.field ADec.string (fun t x => { t with PrincipalType := x }) ;>>
    ADec.field ADec.string (fun t x => { t with PrincipalName := x }) ;>>
    ADec.field ADec.int64 (fun t x => { t with IssueTimestampMs := x }) ;>>
    ADec.field ADec.int64 (fun t x => { t with ExpiryTimestampMs := x }) ;>>
    ADec.field ADec.int64 (fun t x => { t with MaxTimestampMs := x }) ;>>
    ADec.field ADec.string (fun t x => { t with TokenId := x }) ;>>
    ADec.field ADec.bytes (fun t x => { t with Hmac := x }) ;>>
    ADec.field ADec.int32 (fun t x => { t with ThrottleTimeMs := x })
theorem CreateDelegationTokenResponse.erases (version : Int16) (t : CreateDelegationTokenResponse) : Erases (CreateDelegationTokenResponse.decodeA version t) (CreateDelegationTokenResponse.decode version t) :=
  ((ErasesStep.field (.free _))
    |>.andThen (ErasesStep.field .string)
    |>.andThen (ErasesStep.field .string)
    |>.andThen (ErasesStep.field (.free _))
    |>.andThen (ErasesStep.field (.free _))
    |>.andThen (ErasesStep.field (.free _))
    |>.andThen (ErasesStep.field .string)
    |>.andThen (ErasesStep.field (.free _))
    |>.andThen (ErasesStep.field (.free _)) : ErasesStep _ _) t
theorem CreateDelegationTokenResponse.within (version : Int16) (t : CreateDelegationTokenResponse) : Within (CreateDelegationTokenResponse.decodeA version t) 40 0 :=
  (((WithinStep.field .int16)
    |>.andThen (WithinStep.field .string)
    |>.andThen (WithinStep.field .string)
    |>.andThen (WithinStep.field .int64)
    |>.andThen (WithinStep.field .int64)
    |>.andThen (WithinStep.field .int64)
    |>.andThen (WithinStep.field .string)
    |>.andThen (WithinStep.field .bytes)
    |>.andThen (WithinStep.field .int32) : WithinStep _ _ _) t).mono (by decide) (by decide)

end Kafka.Msg
