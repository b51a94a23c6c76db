import Verif.Message.AllocLemmas
import Verif.Gen.Model.SaslHandshake
/-!
Generated by tools/gen_messages.py: memory asked for by decoding the SaslHandshake messages.
-/
namespace Kafka.Msg

/-- message/messages.gen.go:5165-5172 `SaslHandshakeRequest.Decode`, with the memory it asks for -/
def SaslHandshakeRequest.decodeA (_version : Int16) : SaslHandshakeRequest → ADec SaslHandshakeRequest :=
    ADec.field ADec.string (fun t x => { t with Mechanism := x })
theorem SaslHandshakeRequest.erases (version : Int16) (t : SaslHandshakeRequest) : Erases (SaslHandshakeRequest.decodeA version t) (SaslHandshakeRequest.decode version t) :=
  (ErasesStep.field .string : ErasesStep _ _) t
theorem SaslHandshakeRequest.within (version : Int16) (t : SaslHandshakeRequest) : Within (SaslHandshakeRequest.decodeA version t) 2 0 :=
  ((WithinStep.field .string : WithinStep _ _ _) t).mono (by decide) (by decide)

/-- message/messages.gen.go:5195-5206 `SaslHandshakeResponse.Decode`, with the memory it asks for -/
def SaslHandshakeResponse.decodeA (_version : Int16) : SaslHandshakeResponse → ADec SaslHandshakeResponse :=
    ADec.field ADec.int16 (fun t x => { t with ErrorCode := x }) ;>>
    ADec.field ADec.stringArray (fun t x => { t with Mechanisms := x })
theorem SaslHandshakeResponse.erases (version : Int16) (t : SaslHandshakeResponse) : Erases (SaslHandshakeResponse.decodeA version t) (SaslHandshakeResponse.decode version t) :=
  ((ErasesStep.field (.free _))
    |>.andThen (ErasesStep.field (.arrayOf .string)) : ErasesStep _ _) t
theorem SaslHandshakeResponse.within (version : Int16) (t : SaslHandshakeResponse) : Within (SaslHandshakeResponse.decodeA version t) 6 1 :=
  (((WithinStep.field .int16)
    |>.andThen (WithinStep.field .stringArray) : WithinStep _ _ _) t).mono (by decide) (by decide)

end Kafka.Msg
