import Verif.Message.AllocLemmas
import Verif.Gen.Model.SyncGroup
/-!
Generated by tools/gen_messages.py: memory asked for by decoding the SyncGroup messages.
-/
namespace Kafka.Msg

/-- message/messages.gen.go:4715-4726 `SyncGroupRequestAssignment14.Decode`, with the memory it asks for -/
def SyncGroupRequestAssignment14.decodeA (_version : Int16) : SyncGroupRequestAssignment14 → ADec SyncGroupRequestAssignment14 :=
    ADec.field ADec.string (fun t x => { t with MemberId := x }) ;>>
    ADec.field ADec.bytes (fun t x => { t with Assignment := x })
theorem SyncGroupRequestAssignment14.erases (version : Int16) (t : SyncGroupRequestAssignment14) : Erases (SyncGroupRequestAssignment14.decodeA version t) (SyncGroupRequestAssignment14.decode version t) :=
  ((ErasesStep.field .string)
    |>.andThen (ErasesStep.field (.free _)) : ErasesStep _ _) t
theorem SyncGroupRequestAssignment14.within (version : Int16) (t : SyncGroupRequestAssignment14) : Within (SyncGroupRequestAssignment14.decodeA version t) 6 0 :=
  (((WithinStep.field .string)
    |>.andThen (WithinStep.field .bytes) : WithinStep _ _ _) t).mono (by decide) (by decide)

/-- message/messages.gen.go:4659-4693 `SyncGroupRequest.Decode`, with the memory it asks for -/
def SyncGroupRequest.decodeA (version : Int16) : SyncGroupRequest → ADec SyncGroupRequest :=
    ADec.field ADec.string (fun t x => { t with GroupId := x }) ;>>
    ADec.field ADec.int32 (fun t x => { t with GenerationId := x }) ;>>
    ADec.field ADec.string (fun t x => { t with MemberId := x }) ;>>
    ADec.onlyIf (version ≥ 3) (ADec.field ADec.string (fun t x => { t with GroupInstanceId := x })) ;>>
    ADec.fieldStructs (SyncGroupRequestAssignment14.decodeA version {}) (·.Assignments) (fun t x => { t with Assignments := x })
theorem SyncGroupRequest.erases (version : Int16) (t : SyncGroupRequest) : Erases (SyncGroupRequest.decodeA version t) (SyncGroupRequest.decode version t) :=
  ((ErasesStep.field .string)
    |>.andThen (ErasesStep.field (.free _))
    |>.andThen (ErasesStep.field .string)
    |>.andThen (ErasesStep.onlyIf (ErasesStep.field .string))
    |>.andThen (ErasesStep.structs (SyncGroupRequestAssignment14.erases version {})) : ErasesStep _ _) t
theorem SyncGroupRequest.within (version : Int16) (t : SyncGroupRequest) : Within (SyncGroupRequest.decodeA version t) 12 1 :=
  (((WithinStep.field .string)
    |>.andThen (WithinStep.field .int32)
    |>.andThen (WithinStep.field .string)
    |>.andThen (WithinStep.onlyIf (fun _ => WithinStep.field .string))
    |>.andThen (WithinStep.structs ((SyncGroupRequestAssignment14.within version {}).mono (by decide) (Nat.le_refl _))) : WithinStep _ _ _) t).mono (by decide) (by decide)

/-- message/messages.gen.go:4756-4773 `SyncGroupResponse.Decode`, with the memory it asks for -/
def SyncGroupResponse.decodeA (version : Int16) : SyncGroupResponse → ADec SyncGroupResponse :=
    ADec.onlyIf (version ≥ 1) (ADec.field ADec.int32 (fun t x => { t with ThrottleTimeMs := x })) ;>>
    ADec.field ADec.int16 (fun t x => { t with ErrorCode := x }) ;>>
    ADec.field ADec.bytes (fun t x => { t with Assignment := x })
theorem SyncGroupResponse.erases (version : Int16) (t : SyncGroupResponse) : Erases (SyncGroupResponse.decodeA version t) (SyncGroupResponse.decode version t) :=
  ((ErasesStep.onlyIf (ErasesStep.field (.free _)))
    |>.andThen (ErasesStep.field (.free _))
    |>.andThen (ErasesStep.field (.free _)) : ErasesStep _ _) t
theorem SyncGroupResponse.within (version : Int16) (t : SyncGroupResponse) : Within (SyncGroupResponse.decodeA version t) 6 0 :=
  (((WithinStep.onlyIf (fun _ => WithinStep.field .int32))
    |>.andThen (WithinStep.field .int16)
    |>.andThen (WithinStep.field .bytes) : WithinStep _ _ _) t).mono (by decide) (by decide)

end Kafka.Msg
