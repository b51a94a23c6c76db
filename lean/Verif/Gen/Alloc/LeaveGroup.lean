import Verif.Message.AllocLemmas
import Verif.Gen.Model.LeaveGroup
/-!
Generated by tools/gen_messages.py: memory asked for by decoding the LeaveGroup messages.
-/
namespace Kafka.Msg

/-- message/messages.gen.go:4472-4487 `MemberIdentity13.Decode`, with the memory it asks for -/
def MemberIdentity13.decodeA (version : Int16) : MemberIdentity13 → ADec MemberIdentity13 :=
    ADec.onlyIf (version ≥ 3) (ADec.field ADec.string (fun t x => { t with MemberId := x })) ;>>
    ADec.onlyIf (version ≥ 3) (ADec.field ADec.string (fun t x => { t with GroupInstanceId := x }))
theorem MemberIdentity13.erases (version : Int16) (t : MemberIdentity13) : Erases (MemberIdentity13.decodeA version t) (MemberIdentity13.decode version t) :=
  ((ErasesStep.onlyIf (ErasesStep.field .string))
    |>.andThen (ErasesStep.onlyIf (ErasesStep.field .string)) : ErasesStep _ _) t
theorem MemberIdentity13.within (version : Int16) (t : MemberIdentity13) (h : version ≥ 3) : Within (MemberIdentity13.decodeA version t) 2 0 :=
  (((WithinStep.present h (WithinStep.field .string))
    |>.andThen (WithinStep.onlyIf (fun _ => WithinStep.field .string)) : WithinStep _ _ _) t).mono (by decide) (by decide)

/-- message/messages.gen.go:4414-4442 `LeaveGroupRequest.Decode`, with the memory it asks for -/
def LeaveGroupRequest.decodeA (version : Int16) : LeaveGroupRequest → ADec LeaveGroupRequest :=
    ADec.field ADec.string (fun t x => { t with GroupId := x }) ;>>
    ADec.onlyIf (version ≥ 0 ∧ version ≤ 2) (ADec.field ADec.string (fun t x => { t with MemberId := x })) ;>>
    ADec.onlyIf (version ≥ 3) (ADec.fieldStructs (MemberIdentity13.decodeA version {}) (·.Members) (fun t x => { t with Members := x }))
theorem LeaveGroupRequest.erases (version : Int16) (t : LeaveGroupRequest) : Erases (LeaveGroupRequest.decodeA version t) (LeaveGroupRequest.decode version t) :=
  ((ErasesStep.field .string)
    |>.andThen (ErasesStep.onlyIf (ErasesStep.field .string))
    |>.andThen (ErasesStep.onlyIf (ErasesStep.structs (MemberIdentity13.erases version {}))) : ErasesStep _ _) t
theorem LeaveGroupRequest.within (version : Int16) (t : LeaveGroupRequest) : Within (LeaveGroupRequest.decodeA version t) 2 1 :=
  (((WithinStep.field .string)
    |>.andThen (WithinStep.onlyIf (fun _ => WithinStep.field .string))
    |>.andThen (WithinStep.onlyIf (fun h => WithinStep.structs ((MemberIdentity13.within version {} h).mono (by decide) (Nat.le_refl _)))) : WithinStep _ _ _) t).mono (by decide) (by decide)

/-- message/messages.gen.go:4594-4615 `MemberResponse13.Decode`, with the memory it asks for -/
def MemberResponse13.decodeA (version : Int16) : MemberResponse13 → ADec MemberResponse13 :=
    ADec.onlyIf (version ≥ 3) (ADec.field ADec.string (fun t x => { t with MemberId := x })) ;>>
    ADec.onlyIf (version ≥ 3) (ADec.field ADec.string (fun t x => { t with GroupInstanceId := x })) ;>>
    ADec.onlyIf (version ≥ 3) (ADec.field ADec.int16 (fun t x => { t with ErrorCode := x }))
theorem MemberResponse13.erases (version : Int16) (t : MemberResponse13) : Erases (MemberResponse13.decodeA version t) (MemberResponse13.decode version t) :=
  ((ErasesStep.onlyIf (ErasesStep.field .string))
    |>.andThen (ErasesStep.onlyIf (ErasesStep.field .string))
    |>.andThen (ErasesStep.onlyIf (ErasesStep.field (.free _))) : ErasesStep _ _) t
theorem MemberResponse13.within (version : Int16) (t : MemberResponse13) (h : version ≥ 3) : Within (MemberResponse13.decodeA version t) 2 0 :=
  (((WithinStep.present h (WithinStep.field .string))
    |>.andThen (WithinStep.onlyIf (fun _ => WithinStep.field .string))
    |>.andThen (WithinStep.onlyIf (fun _ => WithinStep.field .int16)) : WithinStep _ _ _) t).mono (by decide) (by decide)

/-- message/messages.gen.go:4529-4557 `LeaveGroupResponse.Decode`, with the memory it asks for -/
def LeaveGroupResponse.decodeA (version : Int16) : LeaveGroupResponse → ADec LeaveGroupResponse :=
    ADec.onlyIf (version ≥ 1) (ADec.field ADec.int32 (fun t x => { t with ThrottleTimeMs := x })) ;>>
    ADec.field ADec.int16 (fun t x => { t with ErrorCode := x }) ;>>
    ADec.onlyIf (version ≥ 3) (ADec.fieldStructs (MemberResponse13.decodeA version {}) (·.Members) (fun t x => { t with Members := x }))
theorem LeaveGroupResponse.erases (version : Int16) (t : LeaveGroupResponse) : Erases (LeaveGroupResponse.decodeA version t) (LeaveGroupResponse.decode version t) :=
  ((ErasesStep.onlyIf (ErasesStep.field (.free _)))
    |>.andThen (ErasesStep.field (.free _))
    |>.andThen (ErasesStep.onlyIf (ErasesStep.structs (MemberResponse13.erases version {}))) : ErasesStep _ _) t
theorem LeaveGroupResponse.within (version : Int16) (t : LeaveGroupResponse) : Within (LeaveGroupResponse.decodeA version t) 2 1 :=
  (((WithinStep.onlyIf (fun _ => WithinStep.field .int32))
    |>.andThen (WithinStep.field .int16)
    |>.andThen (WithinStep.onlyIf (fun h => WithinStep.structs ((MemberResponse13.within version {} h).mono (by decide) (Nat.le_refl _)))) : WithinStep _ _ _) t).mono (by decide) (by decide)

end Kafka.Msg
