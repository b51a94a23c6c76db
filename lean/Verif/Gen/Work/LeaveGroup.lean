import Verif.Message.Work
import Verif.Gen.Model.LeaveGroup
/-!
Generated by tools/gen_messages.py: steps taken by decoding the LeaveGroup messages.
-/
namespace Kafka.Msg

/-- message/messages.gen.go:4472-4487 `MemberIdentity13.Decode`, with the steps it takes -/
def MemberIdentity13.decodeW (version : Int16) : MemberIdentity13 → ADec MemberIdentity13 :=
    ADec.onlyIf (version ≥ 3) (ADec.field WDec.string (fun t x => { t with MemberId := x })) ;>>
    ADec.onlyIf (version ≥ 3) (ADec.field WDec.string (fun t x => { t with GroupInstanceId := x }))
theorem MemberIdentity13.erasesW (version : Int16) (t : MemberIdentity13) : Erases (MemberIdentity13.decodeW version t) (MemberIdentity13.decode version t) :=
  ((ErasesStep.onlyIf (ErasesStep.field .stringW))
    |>.andThen (ErasesStep.onlyIf (ErasesStep.field .stringW)) : ErasesStep _ _) t
theorem MemberIdentity13.spends (version : Int16) (t : MemberIdentity13) (h : version ≥ 3) : Spends (MemberIdentity13.decodeW version t) 3 1 :=
  (((SpendsStep.present h (SpendsStep.field .string))
    |>.andThen (SpendsStep.onlyIf (fun _ => SpendsStep.field .string)) : SpendsStep _ _) t).mono (by decide) (by decide)
theorem MemberIdentity13.spends0 (version : Int16) (t : MemberIdentity13) : Spends (MemberIdentity13.decodeW version t) 0 1 :=
  (((SpendsStep.onlyIf (fun _ => SpendsStep.field .string))
    |>.andThen (SpendsStep.onlyIf (fun _ => SpendsStep.field .string)) : SpendsStep _ _) t).mono (by decide) (by decide)

/-- message/messages.gen.go:4414-4442 `LeaveGroupRequest.Decode`, with the steps it takes -/
def LeaveGroupRequest.decodeW (version : Int16) : LeaveGroupRequest → ADec LeaveGroupRequest :=
    ADec.field WDec.string (fun t x => { t with GroupId := x }) ;>>
    ADec.onlyIf (version ≥ 0 ∧ version ≤ 2) (ADec.field WDec.string (fun t x => { t with MemberId := x })) ;>>
    ADec.onlyIf (version ≥ 3) (WDec.fieldStructs (MemberIdentity13.decodeW version {}) (·.Members) (fun t x => { t with Members := x }))
theorem LeaveGroupRequest.erasesW (version : Int16) (t : LeaveGroupRequest) : Erases (LeaveGroupRequest.decodeW version t) (LeaveGroupRequest.decode version t) :=
  ((ErasesStep.field .stringW)
    |>.andThen (ErasesStep.onlyIf (ErasesStep.field .stringW))
    |>.andThen (ErasesStep.onlyIf (ErasesStep.structsW (MemberIdentity13.erasesW version {}))) : ErasesStep _ _) t
theorem LeaveGroupRequest.spends (version : Int16) (t : LeaveGroupRequest) : Spends (LeaveGroupRequest.decodeW version t) 3 1 :=
  (((SpendsStep.field .string)
    |>.andThen (SpendsStep.onlyIf (fun _ => SpendsStep.field .string))
    |>.andThen (SpendsStep.onlyIf (fun h => SpendsStep.structs ((MemberIdentity13.spends version {} h).mono (by decide) (Nat.le_refl _)))) : SpendsStep _ _) t).mono (by decide) (by decide)
theorem LeaveGroupRequest.spends0 (version : Int16) (t : LeaveGroupRequest) : Spends (LeaveGroupRequest.decodeW version t) 0 1 :=
  (LeaveGroupRequest.spends version t).mono (Nat.zero_le _) (Nat.le_refl _)

/-- message/messages.gen.go:4594-4615 `MemberResponse13.Decode`, with the steps it takes -/
def MemberResponse13.decodeW (version : Int16) : MemberResponse13 → ADec MemberResponse13 :=
    ADec.onlyIf (version ≥ 3) (ADec.field WDec.string (fun t x => { t with MemberId := x })) ;>>
    ADec.onlyIf (version ≥ 3) (ADec.field WDec.string (fun t x => { t with GroupInstanceId := x })) ;>>
    ADec.onlyIf (version ≥ 3) (ADec.field WDec.int16 (fun t x => { t with ErrorCode := x }))
theorem MemberResponse13.erasesW (version : Int16) (t : MemberResponse13) : Erases (MemberResponse13.decodeW version t) (MemberResponse13.decode version t) :=
  ((ErasesStep.onlyIf (ErasesStep.field .stringW))
    |>.andThen (ErasesStep.onlyIf (ErasesStep.field .stringW))
    |>.andThen (ErasesStep.onlyIf (ErasesStep.field (.read _))) : ErasesStep _ _) t
theorem MemberResponse13.spends (version : Int16) (t : MemberResponse13) (h : version ≥ 3) : Spends (MemberResponse13.decodeW version t) 3 1 :=
  (((SpendsStep.present h (SpendsStep.field .string))
    |>.andThen (SpendsStep.onlyIf (fun _ => SpendsStep.field .string))
    |>.andThen (SpendsStep.onlyIf (fun _ => SpendsStep.field .int16)) : SpendsStep _ _) t).mono (by decide) (by decide)
theorem MemberResponse13.spends0 (version : Int16) (t : MemberResponse13) : Spends (MemberResponse13.decodeW version t) 0 1 :=
  (((SpendsStep.onlyIf (fun _ => SpendsStep.field .string))
    |>.andThen (SpendsStep.onlyIf (fun _ => SpendsStep.field .string))
    |>.andThen (SpendsStep.onlyIf (fun _ => SpendsStep.field .int16)) : SpendsStep _ _) t).mono (by decide) (by decide)

/-- message/messages.gen.go:4529-4557 `LeaveGroupResponse.Decode`, with the steps it takes -/
def LeaveGroupResponse.decodeW (version : Int16) : LeaveGroupResponse → ADec LeaveGroupResponse :=
    ADec.onlyIf (version ≥ 1) (ADec.field WDec.int32 (fun t x => { t with ThrottleTimeMs := x })) ;>>
    ADec.field WDec.int16 (fun t x => { t with ErrorCode := x }) ;>>
    ADec.onlyIf (version ≥ 3) (WDec.fieldStructs (MemberResponse13.decodeW version {}) (·.Members) (fun t x => { t with Members := x }))
theorem LeaveGroupResponse.erasesW (version : Int16) (t : LeaveGroupResponse) : Erases (LeaveGroupResponse.decodeW version t) (LeaveGroupResponse.decode version t) :=
  ((ErasesStep.onlyIf (ErasesStep.field (.read _)))
    |>.andThen (ErasesStep.field (.read _))
    |>.andThen (ErasesStep.onlyIf (ErasesStep.structsW (MemberResponse13.erasesW version {}))) : ErasesStep _ _) t
theorem LeaveGroupResponse.spends (version : Int16) (t : LeaveGroupResponse) : Spends (LeaveGroupResponse.decodeW version t) 3 1 :=
  (((SpendsStep.onlyIf (fun _ => SpendsStep.field .int32))
    |>.andThen (SpendsStep.field .int16)
    |>.andThen (SpendsStep.onlyIf (fun h => SpendsStep.structs ((MemberResponse13.spends version {} h).mono (by decide) (Nat.le_refl _)))) : SpendsStep _ _) t).mono (by decide) (by decide)
theorem LeaveGroupResponse.spends0 (version : Int16) (t : LeaveGroupResponse) : Spends (LeaveGroupResponse.decodeW version t) 0 1 :=
  (LeaveGroupResponse.spends version t).mono (Nat.zero_le _) (Nat.le_refl _)

/-- The structures of the LeaveGroup messages. -/
def workLeaveGroup : List (Σ M : MsgType, Int16 → M.T → ADec M.T) :=
  [⟨LeaveGroupRequest.type, LeaveGroupRequest.decodeW⟩,
   ⟨MemberIdentity13.type, MemberIdentity13.decodeW⟩,
   ⟨LeaveGroupResponse.type, LeaveGroupResponse.decodeW⟩,
   ⟨MemberResponse13.type, MemberResponse13.decodeW⟩]
theorem workLeaveGroup_erases : ∀ p ∈ workLeaveGroup, ∀ v t, Erases (p.2 v t) (p.1.decode v t) := by
  unfold workLeaveGroup
  simp only [List.forall_mem_cons]
  exact ⟨LeaveGroupRequest.erasesW, MemberIdentity13.erasesW, LeaveGroupResponse.erasesW, MemberResponse13.erasesW, fun _ h => absurd h (by simp)⟩
theorem workLeaveGroup_spends : ∀ p ∈ workLeaveGroup, ∀ v t, Spends (p.2 v t) 0 1 := by
  unfold workLeaveGroup
  simp only [List.forall_mem_cons]
  exact ⟨LeaveGroupRequest.spends0, MemberIdentity13.spends0, LeaveGroupResponse.spends0, MemberResponse13.spends0, fun _ h => absurd h (by simp)⟩

end Kafka.Msg
