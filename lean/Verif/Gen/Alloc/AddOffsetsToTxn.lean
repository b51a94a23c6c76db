import Verif.Message.AllocLemmas
import Verif.Gen.Model.AddOffsetsToTxn
/-!
Generated by tools/gen_messages.py: memory asked for by decoding the AddOffsetsToTxn messages.
-/
namespace Kafka.Msg

/-- message/messages.gen.go:6885-6904 `AddOffsetsToTxnRequest.Decode`, with the memory it asks for -/
def AddOffsetsToTxnRequest.decodeA (_version : Int16) : AddOffsetsToTxnRequest → ADec AddOffsetsToTxnRequest :=
    ADec.field ADec.string (fun t x => { t with TransactionalId := x }) ;>>
    ADec.field ADec.int64 (fun t x => { t with ProducerId := x }) ;>>
    ADec.field ADec.int16 (fun t x => { t with ProducerEpoch := x }) ;>>
    ADec.field ADec.string (fun t x => { t with GroupId := x })
theorem AddOffsetsToTxnRequest.erases (version : Int16) (t : AddOffsetsToTxnRequest) : Erases (AddOffsetsToTxnRequest.decodeA version t) (AddOffsetsToTxnRequest.decode version t) :=
  ((ErasesStep.field .string)
    |>.andThen (ErasesStep.field (.free _))
    |>.andThen (ErasesStep.field (.free _))
    |>.andThen (ErasesStep.field .string) : ErasesStep _ _) t
theorem AddOffsetsToTxnRequest.within (version : Int16) (t : AddOffsetsToTxnRequest) : Within (AddOffsetsToTxnRequest.decodeA version t) 14 0 :=
  (((WithinStep.field .string)
    |>.andThen (WithinStep.field .int64)
    |>.andThen (WithinStep.field .int16)
    |>.andThen (WithinStep.field .string) : WithinStep _ _ _) t).mono (by decide) (by decide)

/-- message/messages.gen.go:6927-6938 `AddOffsetsToTxnResponse.Decode`, with the memory it asks for -/
def AddOffsetsToTxnResponse.decodeA (_version : Int16) : AddOffsetsToTxnResponse → ADec AddOffsetsToTxnResponse :=
    ADec.field ADec.int32 (fun t x => { t with ThrottleTimeMs := x }) ;>>
    ADec.field ADec.int16 (fun t x => { t with ErrorCode := x })
theorem AddOffsetsToTxnResponse.erases (version : Int16) (t : AddOffsetsToTxnResponse) : Erases (AddOffsetsToTxnResponse.decodeA version t) (AddOffsetsToTxnResponse.decode version t) :=
  ((ErasesStep.field (.free _))
    |>.andThen (ErasesStep.field (.free _)) : ErasesStep _ _) t
theorem AddOffsetsToTxnResponse.within (version : Int16) (t : AddOffsetsToTxnResponse) : Within (AddOffsetsToTxnResponse.decodeA version t) 6 0 :=
  (((WithinStep.field .int32)
    |>.andThen (WithinStep.field .int16) : WithinStep _ _ _) t).mono (by decide) (by decide)

end Kafka.Msg
