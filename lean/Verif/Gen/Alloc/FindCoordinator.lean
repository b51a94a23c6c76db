import Verif.Message.AllocLemmas
import Verif.Gen.Model.FindCoordinator
/-!
Generated by tools/gen_messages.py: memory asked for by decoding the FindCoordinator messages.
-/
namespace Kafka.Msg

/-- message/messages.gen.go:3922-3935 `FindCoordinatorRequest.Decode`, with the memory it asks for -/
def FindCoordinatorRequest.decodeA (version : Int16) : FindCoordinatorRequest → ADec FindCoordinatorRequest :=
    ADec.field ADec.string (fun t x => { t with Key := x }) ;>>
    ADec.onlyIf (version ≥ 1) (ADec.field ADec.int8 (fun t x => { t with KeyType := x }))
theorem FindCoordinatorRequest.erases (version : Int16) (t : FindCoordinatorRequest) : Erases (FindCoordinatorRequest.decodeA version t) (FindCoordinatorRequest.decode version t) :=
  ((ErasesStep.field .string)
    |>.andThen (ErasesStep.onlyIf (ErasesStep.field (.free _))) : ErasesStep _ _) t
theorem FindCoordinatorRequest.within (version : Int16) (t : FindCoordinatorRequest) : Within (FindCoordinatorRequest.decodeA version t) 2 0 :=
  (((WithinStep.field .string)
    |>.andThen (WithinStep.onlyIf (fun _ => WithinStep.field .int8)) : WithinStep _ _ _) t).mono (by decide) (by decide)

/-- message/messages.gen.go:3978-4009 `FindCoordinatorResponse.Decode`, with the memory it asks for -/
def FindCoordinatorResponse.decodeA (version : Int16) : FindCoordinatorResponse → ADec FindCoordinatorResponse :=
    ADec.onlyIf (version ≥ 1) (ADec.field ADec.int32 (fun t x => { t with ThrottleTimeMs := x })) ;>>
    ADec.field ADec.int16 (fun t x => { t with ErrorCode := x }) ;>>
    ADec.onlyIf (version ≥ 1) (ADec.field ADec.string (fun t x => { t with ErrorMessage := x })) ;>>
    ADec.field ADec.int32 (fun t x => { t with NodeId := x }) ;>>
    ADec.field ADec.string (fun t x => { t with Host := x }) ;>>
    ADec.field ADec.int32 (fun t x => { t with Port := x })
theorem FindCoordinatorResponse.erases (version : Int16) (t : FindCoordinatorResponse) : Erases (FindCoordinatorResponse.decodeA version t) (FindCoordinatorResponse.decode version t) :=
  ((ErasesStep.onlyIf (ErasesStep.field (.free _)))
    |>.andThen (ErasesStep.field (.free _))
    |>.andThen (ErasesStep.onlyIf (ErasesStep.field .string))
    |>.andThen (ErasesStep.field (.free _))
    |>.andThen (ErasesStep.field .string)
    |>.andThen (ErasesStep.field (.free _)) : ErasesStep _ _) t
theorem FindCoordinatorResponse.within (version : Int16) (t : FindCoordinatorResponse) : Within (FindCoordinatorResponse.decodeA version t) 12 0 :=
  (((WithinStep.onlyIf (fun _ => WithinStep.field .int32))
    |>.andThen (WithinStep.field .int16)
    |>.andThen (WithinStep.onlyIf (fun _ => WithinStep.field .string))
    |>.andThen (WithinStep.field .int32)
    |>.andThen (WithinStep.field .string)
    |>.andThen (WithinStep.field .int32) : WithinStep _ _ _) t).mono (by decide) (by decide)

end Kafka.Msg
