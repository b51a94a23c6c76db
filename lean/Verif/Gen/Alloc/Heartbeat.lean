import Verif.Message.AllocLemmas
import Verif.Gen.Model.Heartbeat
/-!
Generated by tools/gen_messages.py: memory asked for by decoding the Heartbeat messages.
-/
namespace Kafka.Msg

/-- message/messages.gen.go:4311-4332 `HeartbeatRequest.Decode`, with the memory it asks for -/
def HeartbeatRequest.decodeA (version : Int16) : HeartbeatRequest → ADec HeartbeatRequest :=
    ADec.field ADec.string (fun t x => { t with GroupId := x }) ;>>
    ADec.field ADec.int32 (fun t x => { t with GenerationId := x }) ;>>
    ADec.field ADec.string (fun t x => { t with MemberId := x }) ;>>
    ADec.onlyIf (version ≥ 3) (ADec.field ADec.string (fun t x => { t with GroupInstanceId := x }))
theorem HeartbeatRequest.erases (version : Int16) (t : HeartbeatRequest) : Erases (HeartbeatRequest.decodeA version t) (HeartbeatRequest.decode version t) :=
  ((ErasesStep.field .string)
    |>.andThen (ErasesStep.field (.free _))
    |>.andThen (ErasesStep.field .string)
    |>.andThen (ErasesStep.onlyIf (ErasesStep.field .string)) : ErasesStep _ _) t
theorem HeartbeatRequest.within (version : Int16) (t : HeartbeatRequest) : Within (HeartbeatRequest.decodeA version t) 8 0 :=
  (((WithinStep.field .string)
    |>.andThen (WithinStep.field .int32)
    |>.andThen (WithinStep.field .string)
    |>.andThen (WithinStep.onlyIf (fun _ => WithinStep.field .string)) : WithinStep _ _ _) t).mono (by decide) (by decide)

/-- message/messages.gen.go:4359-4372 `HeartbeatResponse.Decode`, with the memory it asks for -/
def HeartbeatResponse.decodeA (version : Int16) : HeartbeatResponse → ADec HeartbeatResponse :=
    ADec.onlyIf (version ≥ 1) (ADec.field ADec.int32 (fun t x => { t with ThrottleTimeMs := x })) ;>>
    ADec.field ADec.int16 (fun t x => { t with ErrorCode := x })
theorem HeartbeatResponse.erases (version : Int16) (t : HeartbeatResponse) : Erases (HeartbeatResponse.decodeA version t) (HeartbeatResponse.decode version t) :=
  ((ErasesStep.onlyIf (ErasesStep.field (.free _)))
    |>.andThen (ErasesStep.field (.free _)) : ErasesStep _ _) t
theorem HeartbeatResponse.within (version : Int16) (t : HeartbeatResponse) : Within (HeartbeatResponse.decodeA version t) 2 0 :=
  (((WithinStep.onlyIf (fun _ => WithinStep.field .int32))
    |>.andThen (WithinStep.field .int16) : WithinStep _ _ _) t).mono (by decide) (by decide)

end Kafka.Msg
