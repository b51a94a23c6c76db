import Verif.Message.AllocLemmas
import Verif.Gen.Model.InitProducerId
/-!
Generated by tools/gen_messages.py: memory asked for by decoding the InitProducerId messages.
-/
namespace Kafka.Msg

/-- message/messages.gen.go:6252-6263 `InitProducerIdRequest.Decode`, with the memory it asks for -/
def InitProducerIdRequest.decodeA (_version : Int16) : InitProducerIdRequest → ADec InitProducerIdRequest :=
    ADec.field ADec.string (fun t x => { t with TransactionalId := x }) ;>>
    ADec.field ADec.int32 (fun t x => { t with TransactionTimeoutMs := x })
theorem InitProducerIdRequest.erases (version : Int16) (t : InitProducerIdRequest) : Erases (InitProducerIdRequest.decodeA version t) (InitProducerIdRequest.decode version t) :=
  ((ErasesStep.field .string)
    |>.andThen (ErasesStep.field (.free _)) : ErasesStep _ _) t
theorem InitProducerIdRequest.within (version : Int16) (t : InitProducerIdRequest) : Within (InitProducerIdRequest.decodeA version t) 6 0 :=
  (((WithinStep.field .string)
    |>.andThen (WithinStep.field .int32) : WithinStep _ _ _) t).mono (by decide) (by decide)

/-- message/messages.gen.go:6292-6311 `InitProducerIdResponse.Decode`, with the memory it asks for -/
def InitProducerIdResponse.decodeA (_version : Int16) : InitProducerIdResponse → ADec InitProducerIdResponse :=
    ADec.field ADec.int32 (fun t x => { t with ThrottleTimeMs := x }) ;>>
    ADec.field ADec.int16 (fun t x => { t with ErrorCode := x }) ;>>
    ADec.field ADec.int64 (fun t x => { t with ProducerId := x }) ;>>
    ADec.field ADec.int16 (fun t x => { t with ProducerEpoch := x })
theorem InitProducerIdResponse.erases (version : Int16) (t : InitProducerIdResponse) : Erases (InitProducerIdResponse.decodeA version t) (InitProducerIdResponse.decode version t) :=
  ((ErasesStep.field (.free _))
    |>.andThen (ErasesStep.field (.free _))
    |>.andThen (ErasesStep.field (.free _))
    |>.andThen (ErasesStep.field (.free _)) : ErasesStep _ _) t
theorem InitProducerIdResponse.within (version : Int16) (t : InitProducerIdResponse) : Within (InitProducerIdResponse.decodeA version t) 16 0 :=
  (((WithinStep.field .int32)
    |>.andThen (WithinStep.field .int16)
    |>.andThen (WithinStep.field .int64)
    |>.andThen (WithinStep.field .int16) : WithinStep _ _ _) t).mono (by decide) (by decide)

end Kafka.Msg
