import Verif.Message.AllocLemmas
import Verif.Gen.Model.RenewDelegationToken
/-!
Generated by tools/gen_messages.py: memory asked for by decoding the RenewDelegationToken messages.
-/
namespace Kafka.Msg

/-- message/messages.gen.go:10092-10103 `RenewDelegationTokenRequest.Decode`, with the memory it asks for -/
def RenewDelegationTokenRequest.decodeA (_version : Int16) : RenewDelegationTokenRequest → ADec RenewDelegationTokenRequest :=
    ADec.field ADec.bytes (fun t x => { t with Hmac := x }) ;>>
    ADec.field ADec.int64 (fun t x => { t with RenewPeriodMs := x })
theorem RenewDelegationTokenRequest.erases (version : Int16) (t : RenewDelegationTokenRequest) : Erases (RenewDelegationTokenRequest.decodeA version t) (RenewDelegationTokenRequest.decode version t) :=
  ((ErasesStep.field (.free _))
    |>.andThen (ErasesStep.field (.free _)) : ErasesStep _ _) t
theorem RenewDelegationTokenRequest.within (version : Int16) (t : RenewDelegationTokenRequest) : Within (RenewDelegationTokenRequest.decodeA version t) 12 0 :=
  (((WithinStep.field .bytes)
    |>.andThen (WithinStep.field .int64) : WithinStep _ _ _) t).mono (by decide) (by decide)

/-- message/messages.gen.go:10129-10144 `RenewDelegationTokenResponse.Decode`, with the memory it asks for -/
def RenewDelegationTokenResponse.decodeA (_version : Int16) : RenewDelegationTokenResponse → ADec RenewDelegationTokenResponse :=
    ADec.field ADec.int16 (fun t x => { t with ErrorCode := x }) ;>>
    ADec.field ADec.int64 (fun t x => { t with ExpiryTimestampMs := x }) ;>>
    ADec.field ADec.int32 (fun t x => { t with ThrottleTimeMs := x })
theorem RenewDelegationTokenResponse.erases (version : Int16) (t : RenewDelegationTokenResponse) : Erases (RenewDelegationTokenResponse.decodeA version t) (RenewDelegationTokenResponse.decode version t) :=
  ((ErasesStep.field (.free _))
    |>.andThen (ErasesStep.field (.free _))
    |>.andThen (ErasesStep.field (.free _)) : ErasesStep _ _) t
theorem RenewDelegationTokenResponse.within (version : Int16) (t : RenewDelegationTokenResponse) : Within (RenewDelegationTokenResponse.decodeA version t) 14 0 :=
  (((WithinStep.field .int16)
    |>.andThen (WithinStep.field .int64)
    |>.andThen (WithinStep.field .int32) : WithinStep _ _ _) t).mono (by decide) (by decide)

end Kafka.Msg
