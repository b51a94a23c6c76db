import Verif.Message.AllocLemmas
import Verif.Gen.Model.SaslAuthenticate
/-!
Generated by tools/gen_messages.py: memory asked for by decoding the SaslAuthenticate messages.
-/
namespace Kafka.Msg

/-- message/messages.gen.go:9609-9616 `SaslAuthenticateRequest.Decode`, with the memory it asks for -/
def SaslAuthenticateRequest.decodeA (_version : Int16) : SaslAuthenticateRequest → ADec SaslAuthenticateRequest :=
    ADec.field ADec.bytes (fun t x => { t with AuthBytes := x })
theorem SaslAuthenticateRequest.erases (version : Int16) (t : SaslAuthenticateRequest) : Erases (SaslAuthenticateRequest.decodeA version t) (SaslAuthenticateRequest.decode version t) :=
  (ErasesStep.field (.free _) : ErasesStep _ _) t
theorem SaslAuthenticateRequest.within (version : Int16) (t : SaslAuthenticateRequest) : Within (SaslAuthenticateRequest.decodeA version t) 4 0 :=
  ((WithinStep.field .bytes : WithinStep _ _ _) t).mono (by decide) (by decide)

/-- message/messages.gen.go:9649-9670 `SaslAuthenticateResponse.Decode`, with the memory it asks for -/
def SaslAuthenticateResponse.decodeA (version : Int16) : SaslAuthenticateResponse → ADec SaslAuthenticateResponse :=
    ADec.field ADec.int16 (fun t x => { t with ErrorCode := x }) ;>>
    ADec.field ADec.string (fun t x => { t with ErrorMessage := x }) ;>>
    ADec.field ADec.bytes (fun t x => { t with AuthBytes := x }) ;>>
    ADec.onlyIf (version ≥ 1) (ADec.field ADec.int64 (fun t x => { t with SessionLifetimeMs := x }))
theorem SaslAuthenticateResponse.erases (version : Int16) (t : SaslAuthenticateResponse) : Erases (SaslAuthenticateResponse.decodeA version t) (SaslAuthenticateResponse.decode version t) :=
  ((ErasesStep.field (.free _))
    |>.andThen (ErasesStep.field .string)
    |>.andThen (ErasesStep.field (.free _))
    |>.andThen (ErasesStep.onlyIf (ErasesStep.field (.free _))) : ErasesStep _ _) t
theorem SaslAuthenticateResponse.within (version : Int16) (t : SaslAuthenticateResponse) : Within (SaslAuthenticateResponse.decodeA version t) 8 0 :=
  (((WithinStep.field .int16)
    |>.andThen (WithinStep.field .string)
    |>.andThen (WithinStep.field .bytes)
    |>.andThen (WithinStep.onlyIf (fun _ => WithinStep.field .int64)) : WithinStep _ _ _) t).mono (by decide) (by decide)

end Kafka.Msg
