import Verif.Message.AllocLemmas
import Verif.Gen.Model.Header
/-!
Generated by tools/gen_messages.py: memory asked for by decoding the Header messages.
-/
namespace Kafka.Msg

/-- message/messages.gen.go:469-490 `RequestHeader.Decode`, with the memory it asks for -/
def RequestHeader.decodeA (version : Int16) : RequestHeader → ADec RequestHeader :=
    ADec.field ADec.int16 (fun t x => { t with RequestApiKey := x }) ;>>
    ADec.field ADec.int16 (fun t x => { t with RequestApiVersion := x }) ;>>
    ADec.field ADec.int32 (fun t x => { t with CorrelationId := x }) ;>>
    ADec.onlyIf (version ≥ 1) (ADec.field ADec.string (fun t x => { t with ClientId := x }))
theorem RequestHeader.erases (version : Int16) (t : RequestHeader) : Erases (RequestHeader.decodeA version t) (RequestHeader.decode version t) :=
  ((ErasesStep.field (.free _))
    |>.andThen (ErasesStep.field (.free _))
    |>.andThen (ErasesStep.field (.free _))
    |>.andThen (ErasesStep.onlyIf (ErasesStep.field .string)) : ErasesStep _ _) t
theorem RequestHeader.within (version : Int16) (t : RequestHeader) : Within (RequestHeader.decodeA version t) 8 0 :=
  (((WithinStep.field .int16)
    |>.andThen (WithinStep.field .int16)
    |>.andThen (WithinStep.field .int32)
    |>.andThen (WithinStep.onlyIf (fun _ => WithinStep.field .string)) : WithinStep _ _ _) t).mono (by decide) (by decide)

/-- message/messages.gen.go:510-517 `ResponseHeader.Decode`, with the memory it asks for -/
def ResponseHeader.decodeA (_version : Int16) : ResponseHeader → ADec ResponseHeader :=
    ADec.field ADec.int32 (fun t x => { t with CorrelationId := x })
theorem ResponseHeader.erases (version : Int16) (t : ResponseHeader) : Erases (ResponseHeader.decodeA version t) (ResponseHeader.decode version t) :=
  (ErasesStep.field (.free _) : ErasesStep _ _) t
theorem ResponseHeader.within (version : Int16) (t : ResponseHeader) : Within (ResponseHeader.decodeA version t) 4 0 :=
  ((WithinStep.field .int32 : WithinStep _ _ _) t).mono (by decide) (by decide)

end Kafka.Msg
