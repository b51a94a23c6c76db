import Verif.Message.AllocLemmas
import Verif.Gen.Model.DescribeDelegationToken
/-!
Generated by tools/gen_messages.py: memory asked for by decoding the DescribeDelegationToken messages.
-/
namespace Kafka.Msg

/-- message/messages.gen.go:10285-10296 `DescribeDelegationTokenOwner41.Decode`, with the memory it asks for -/
def DescribeDelegationTokenOwner41.decodeA (_version : Int16) : DescribeDelegationTokenOwner41 → ADec DescribeDelegationTokenOwner41 :=
    ADec.field ADec.string (fun t x => { t with PrincipalType := x }) ;>>
    ADec.field ADec.string (fun t x => { t with PrincipalName := x })
theorem DescribeDelegationTokenOwner41.erases (version : Int16) (t : DescribeDelegationTokenOwner41) : Erases (DescribeDelegationTokenOwner41.decodeA version t) (DescribeDelegationTokenOwner41.decode version t) :=
  ((ErasesStep.field .string)
    |>.andThen (ErasesStep.field .string) : ErasesStep _ _) t
theorem DescribeDelegationTokenOwner41.within (version : Int16) (t : DescribeDelegationTokenOwner41) : Within (DescribeDelegationTokenOwner41.decodeA version t) 4 0 :=
  (((WithinStep.field .string)
    |>.andThen (WithinStep.field .string) : WithinStep _ _ _) t).mono (by decide) (by decide)

/-- message/messages.gen.go:10247-10263 `DescribeDelegationTokenRequest.Decode`, with the memory it asks for -/
def DescribeDelegationTokenRequest.decodeA (version : Int16) : DescribeDelegationTokenRequest → ADec DescribeDelegationTokenRequest :=
    ADec.fieldStructs (DescribeDelegationTokenOwner41.decodeA version {}) (·.Owners) (fun t x => { t with Owners := x })
theorem DescribeDelegationTokenRequest.erases (version : Int16) (t : DescribeDelegationTokenRequest) : Erases (DescribeDelegationTokenRequest.decodeA version t) (DescribeDelegationTokenRequest.decode version t) :=
  (ErasesStep.structs (DescribeDelegationTokenOwner41.erases version {}) : ErasesStep _ _) t
theorem DescribeDelegationTokenRequest.within (version : Int16) (t : DescribeDelegationTokenRequest) : Within (DescribeDelegationTokenRequest.decodeA version t) 4 1 :=
  ((WithinStep.structs ((DescribeDelegationTokenOwner41.within version {}).mono (by decide) (Nat.le_refl _)) : WithinStep _ _ _) t).mono (by decide) (by decide)

/-- message/messages.gen.go:10468-10479 `DescribedDelegationTokenRenewer41.Decode`, with the memory it asks for -/
def DescribedDelegationTokenRenewer41.decodeA (_version : Int16) : DescribedDelegationTokenRenewer41 → ADec DescribedDelegationTokenRenewer41 :=
    ADec.field ADec.string (fun t x => { t with PrincipalType := x }) ;>>
    ADec.field ADec.string (fun t x => { t with PrincipalName := x })
theorem DescribedDelegationTokenRenewer41.erases (version : Int16) (t : DescribedDelegationTokenRenewer41) : Erases (DescribedDelegationTokenRenewer41.decodeA version t) (DescribedDelegationTokenRenewer41.decode version t) :=
  ((ErasesStep.field .string)
    |>.andThen (ErasesStep.field .string) : ErasesStep _ _) t
theorem DescribedDelegationTokenRenewer41.within (version : Int16) (t : DescribedDelegationTokenRenewer41) : Within (DescribedDelegationTokenRenewer41.decodeA version t) 4 0 :=
  (((WithinStep.field .string)
    |>.andThen (WithinStep.field .string) : WithinStep _ _ _) t).mono (by decide) (by decide)

/-- message/messages.gen.go:10402-10446 `DescribedDelegationToken41.Decode`, with the memory it asks for -/
def DescribedDelegationToken41.decodeA (version : Int16) : DescribedDelegationToken41 → ADec DescribedDelegationToken41 :=
    ADec.field ADec.string (fun t x => { t with PrincipalType := x }) ;>>
    ADec.field ADec.string (fun t x => { t with PrincipalName := x }) ;>>
    ADec.field ADec.int64 (fun t x => { t with IssueTimestamp := x }) ;>>
    ADec.field ADec.int64 (fun t x => { t with ExpiryTimestamp := x }) ;>>
    ADec.field ADec.int64 (fun t x => { t with MaxTimestamp := x }) ;>>
    ADec.field ADec.string (fun t x => { t with TokenId := x }) ;>>
    ADec.field ADec.bytes (fun t x => { t with Hmac := x }) ;>>
    ADec.fieldStructs (DescribedDelegationTokenRenewer41.decodeA version {}) (·.Renewers) (fun t x => { t with Renewers := x })
theorem DescribedDelegationToken41.erases (version : Int16) (t : DescribedDelegationToken41) : Erases (DescribedDelegationToken41.decodeA version t) (DescribedDelegationToken41.decode version t) :=
  ((ErasesStep.field .string)
    |>.andThen (ErasesStep.field .string)
    |>.andThen (ErasesStep.field (.free _))
    |>.andThen (ErasesStep.field (.free _))
    |>.andThen (ErasesStep.field (.free _))
    |>.andThen (ErasesStep.field .string)
    |>.andThen (ErasesStep.field (.free _))
    |>.andThen (ErasesStep.structs (DescribedDelegationTokenRenewer41.erases version {})) : ErasesStep _ _) t
theorem DescribedDelegationToken41.within (version : Int16) (t : DescribedDelegationToken41) : Within (DescribedDelegationToken41.decodeA version t) 38 1 :=
  (((WithinStep.field .string)
    |>.andThen (WithinStep.field .string)
    |>.andThen (WithinStep.field .int64)
    |>.andThen (WithinStep.field .int64)
    |>.andThen (WithinStep.field .int64)
    |>.andThen (WithinStep.field .string)
    |>.andThen (WithinStep.field .bytes)
    |>.andThen (WithinStep.structs ((DescribedDelegationTokenRenewer41.within version {}).mono (by decide) (Nat.le_refl _))) : WithinStep _ _ _) t).mono (by decide) (by decide)

/-- message/messages.gen.go:10330-10354 `DescribeDelegationTokenResponse.Decode`, with the memory it asks for -/
def DescribeDelegationTokenResponse.decodeA (version : Int16) : DescribeDelegationTokenResponse → ADec DescribeDelegationTokenResponse :=
    ADec.field ADec.int16 (fun t x => { t with ErrorCode := x }) ;>>
    ADec.fieldStructs (DescribedDelegationToken41.decodeA version {}) (·.Tokens) (fun t x => { t with Tokens := x }) ;>>
    ADec.field ADec.int32 (fun t x => { t with ThrottleTimeMs := x })
theorem DescribeDelegationTokenResponse.erases (version : Int16) (t : DescribeDelegationTokenResponse) : Erases (DescribeDelegationTokenResponse.decodeA version t) (DescribeDelegationTokenResponse.decode version t) :=
  ((ErasesStep.field (.free _))
    |>.andThen (ErasesStep.structs (DescribedDelegationToken41.erases version {}))
    |>.andThen (ErasesStep.field (.free _)) : ErasesStep _ _) t
theorem DescribeDelegationTokenResponse.within (version : Int16) (t : DescribeDelegationTokenResponse) : Within (DescribeDelegationTokenResponse.decodeA version t) 10 2 :=
  (((WithinStep.field .int16)
    |>.andThen (WithinStep.structs ((DescribedDelegationToken41.within version {}).mono (by decide) (Nat.le_refl _)))
    |>.andThen (WithinStep.field .int32) : WithinStep _ _ _) t).mono (by decide) (by decide)

end Kafka.Msg
