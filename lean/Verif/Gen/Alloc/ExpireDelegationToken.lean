import Verif.Message.AllocLemmas
import Verif.Gen.Model.ExpireDelegationToken
/-!
Generated by tools/gen_messages.py: memory asked for by decoding the ExpireDelegationToken messages.
-/
namespace Kafka.Msg

/-- message/messages.gen.go:10167-10178 `ExpireDelegationTokenRequest.Decode`, with the memory it asks for -/
def ExpireDelegationTokenRequest.decodeA (_version : Int16) : ExpireDelegationTokenRequest → ADec ExpireDelegationTokenRequest :=
    ADec.field ADec.bytes (fun t x => { t with Hmac := x }) ;>>
    ADec.field ADec.int64 (fun t x => { t with ExpiryTimePeriodMs := x })
theorem ExpireDelegationTokenRequest.erases (version : Int16) (t : ExpireDelegationTokenRequest) : Erases (ExpireDelegationTokenRequest.decodeA version t) (ExpireDelegationTokenRequest.decode version t) :=
  ((ErasesStep.field (.free _))
    |>.andThen (ErasesStep.field (.free _)) : ErasesStep _ _) t
theorem ExpireDelegationTokenRequest.within (version : Int16) (t : ExpireDelegationTokenRequest) : Within (ExpireDelegationTokenRequest.decodeA version t) 12 0 :=
  (((WithinStep.field .bytes)
    |>.andThen (WithinStep.field .int64) : WithinStep _ _ _) t).mono (by decide) (by decide)

/-- message/messages.gen.go:10204-10219 `ExpireDelegationTokenResponse.Decode`, with the memory it asks for -/
def ExpireDelegationTokenResponse.decodeA (_version : Int16) : ExpireDelegationTokenResponse → ADec ExpireDelegationTokenResponse :=
    ADec.field ADec.int16 (fun t x => { t with ErrorCode := x }) ;>>
    ADec.field ADec.int64 (fun t x => { t with ExpiryTimestampMs := x }) ;>>
    ADec.field ADec.int32 (fun t x => { t with ThrottleTimeMs := x })
theorem ExpireDelegationTokenResponse.erases (version : Int16) (t : ExpireDelegationTokenResponse) : Erases (ExpireDelegationTokenResponse.decodeA version t) (ExpireDelegationTokenResponse.decode version t) :=
  ((ErasesStep.field (.free _))
    |>.andThen (ErasesStep.field (.free _))
    |>.andThen (ErasesStep.field (.free _)) : ErasesStep _ _) t
theorem ExpireDelegationTokenResponse.within (version : Int16) (t : ExpireDelegationTokenResponse) : Within (ExpireDelegationTokenResponse.decodeA version t) 14 0 :=
  (((WithinStep.field .int16)
    |>.andThen (WithinStep.field .int64)
    |>.andThen (WithinStep.field .int32) : WithinStep _ _ _) t).mono (by decide) (by decide)

end Kafka.Msg
