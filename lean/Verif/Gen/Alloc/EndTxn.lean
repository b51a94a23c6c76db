import Verif.Message.AllocLemmas
import Verif.Gen.Model.EndTxn
/-!
Generated by tools/gen_messages.py: memory asked for by decoding the EndTxn messages.
-/
namespace Kafka.Msg

/-- message/messages.gen.go:6967-6986 `EndTxnRequest.Decode`, with the memory it asks for -/
def EndTxnRequest.decodeA (_version : Int16) : EndTxnRequest → ADec EndTxnRequest :=
    ADec.field ADec.string (fun t x => { t with TransactionalId := x }) ;>>
    ADec.field ADec.int64 (fun t x => { t with ProducerId := x }) ;>>
    ADec.field ADec.int16 (fun t x => { t with ProducerEpoch := x }) ;>>
    ADec.field ADec.bool (fun t x => { t with Committed := x })
theorem EndTxnRequest.erases (version : Int16) (t : EndTxnRequest) : Erases (EndTxnRequest.decodeA version t) (EndTxnRequest.decode version t) :=
  ((ErasesStep.field .string)
    |>.andThen (ErasesStep.field (.free _))
    |>.andThen (ErasesStep.field (.free _))
    |>.andThen (ErasesStep.field (.free _)) : ErasesStep _ _) t
theorem EndTxnRequest.within (version : Int16) (t : EndTxnRequest) : Within (EndTxnRequest.decodeA version t) 13 0 :=
  (((WithinStep.field .string)
    |>.andThen (WithinStep.field .int64)
    |>.andThen (WithinStep.field .int16)
    |>.andThen (WithinStep.field .bool) : WithinStep _ _ _) t).mono (by decide) (by decide)

/-- message/messages.gen.go:7009-7020 `EndTxnResponse.Decode`, with the memory it asks for -/
def EndTxnResponse.decodeA (_version : Int16) : EndTxnResponse → ADec EndTxnResponse :=
    ADec.field ADec.int32 (fun t x => { t with ThrottleTimeMs := x }) ;>>
    ADec.field ADec.int16 (fun t x => { t with ErrorCode := x })
theorem EndTxnResponse.erases (version : Int16) (t : EndTxnResponse) : Erases (EndTxnResponse.decodeA version t) (EndTxnResponse.decode version t) :=
  ((ErasesStep.field (.free _))
    |>.andThen (ErasesStep.field (.free _)) : ErasesStep _ _) t
theorem EndTxnResponse.within (version : Int16) (t : EndTxnResponse) : Within (EndTxnResponse.decodeA version t) 6 0 :=
  (((WithinStep.field .int32)
    |>.andThen (WithinStep.field .int16) : WithinStep _ _ _) t).mono (by decide) (by decide)

end Kafka.Msg
