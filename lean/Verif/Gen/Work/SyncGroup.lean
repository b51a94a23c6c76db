import Verif.Message.Work
import Verif.Gen.Model.SyncGroup
/-!
Generated by tools/gen_messages.py: steps taken by decoding the SyncGroup messages.
-/
namespace Kafka.Msg

/-- message/messages.gen.go:4715-4726 `SyncGroupRequestAssignment14.Decode`, with the steps it takes -/
def SyncGroupRequestAssignment14.decodeW (_version : Int16) : SyncGroupRequestAssignment14 → ADec SyncGroupRequestAssignment14 :=
    ADec.field WDec.string (fun t x => { t with MemberId := x }) ;>>
    ADec.field WDec.bytes (fun t x => { t with Assignment := x })
theorem SyncGroupRequestAssignment14.erasesW (version : Int16) (t : SyncGroupRequestAssignment14) : Erases (SyncGroupRequestAssignment14.decodeW version t) (SyncGroupRequestAssignment14.decode version t) :=
  ((ErasesStep.field .stringW)
    |>.andThen (ErasesStep.field (.read _)) : ErasesStep _ _) t
theorem SyncGroupRequestAssignment14.spends (version : Int16) (t : SyncGroupRequestAssignment14) : Spends (SyncGroupRequestAssignment14.decodeW version t) 10 1 :=
  (((SpendsStep.field .string)
    |>.andThen (SpendsStep.field .bytes) : SpendsStep _ _) t).mono (by decide) (by decide)
theorem SyncGroupRequestAssignment14.spends0 (version : Int16) (t : SyncGroupRequestAssignment14) : Spends (SyncGroupRequestAssignment14.decodeW version t) 0 1 :=
  (SyncGroupRequestAssignment14.spends version t).mono (Nat.zero_le _) (Nat.le_refl _)

/-- message/messages.gen.go:4659-4693 `SyncGroupRequest.Decode`, with the steps it takes -/
def SyncGroupRequest.decodeW (version : Int16) : SyncGroupRequest → ADec SyncGroupRequest :=
    ADec.field WDec.string (fun t x => { t with GroupId := x }) ;>>
    ADec.field WDec.int32 (fun t x => { t with GenerationId := x }) ;>>
    ADec.field WDec.string (fun t x => { t with MemberId := x }) ;>>
    ADec.onlyIf (version ≥ 3) (ADec.field WDec.string (fun t x => { t with GroupInstanceId := x })) ;>>
    WDec.fieldStructs (SyncGroupRequestAssignment14.decodeW version {}) (·.Assignments) (fun t x => { t with Assignments := x })
theorem SyncGroupRequest.erasesW (version : Int16) (t : SyncGroupRequest) : Erases (SyncGroupRequest.decodeW version t) (SyncGroupRequest.decode version t) :=
  ((ErasesStep.field .stringW)
    |>.andThen (ErasesStep.field (.read _))
    |>.andThen (ErasesStep.field .stringW)
    |>.andThen (ErasesStep.onlyIf (ErasesStep.field .stringW))
    |>.andThen (ErasesStep.structsW (SyncGroupRequestAssignment14.erasesW version {})) : ErasesStep _ _) t
theorem SyncGroupRequest.spends (version : Int16) (t : SyncGroupRequest) : Spends (SyncGroupRequest.decodeW version t) 20 1 :=
  (((SpendsStep.field .string)
    |>.andThen (SpendsStep.field .int32)
    |>.andThen (SpendsStep.field .string)
    |>.andThen (SpendsStep.onlyIf (fun _ => SpendsStep.field .string))
    |>.andThen (SpendsStep.structs ((SyncGroupRequestAssignment14.spends version {}).mono (by decide) (Nat.le_refl _))) : SpendsStep _ _) t).mono (by decide) (by decide)
theorem SyncGroupRequest.spends0 (version : Int16) (t : SyncGroupRequest) : Spends (SyncGroupRequest.decodeW version t) 0 1 :=
  (SyncGroupRequest.spends version t).mono (Nat.zero_le _) (Nat.le_refl _)

/-- message/messages.gen.go:4756-4773 `SyncGroupResponse.Decode`, with the steps it takes -/
def SyncGroupResponse.decodeW (version : Int16) : SyncGroupResponse → ADec SyncGroupResponse :=
    ADec.onlyIf (version ≥ 1) (ADec.field WDec.int32 (fun t x => { t with ThrottleTimeMs := x })) ;>>
    ADec.field WDec.int16 (fun t x => { t with ErrorCode := x }) ;>>
    ADec.field WDec.bytes (fun t x => { t with Assignment := x })
theorem SyncGroupResponse.erasesW (version : Int16) (t : SyncGroupResponse) : Erases (SyncGroupResponse.decodeW version t) (SyncGroupResponse.decode version t) :=
  ((ErasesStep.onlyIf (ErasesStep.field (.read _)))
    |>.andThen (ErasesStep.field (.read _))
    |>.andThen (ErasesStep.field (.read _)) : ErasesStep _ _) t
theorem SyncGroupResponse.spends (version : Int16) (t : SyncGroupResponse) : Spends (SyncGroupResponse.decodeW version t) 10 1 :=
  (((SpendsStep.onlyIf (fun _ => SpendsStep.field .int32))
    |>.andThen (SpendsStep.field .int16)
    |>.andThen (SpendsStep.field .bytes) : SpendsStep _ _) t).mono (by decide) (by decide)
theorem SyncGroupResponse.spends0 (version : Int16) (t : SyncGroupResponse) : Spends (SyncGroupResponse.decodeW version t) 0 1 :=
  (SyncGroupResponse.spends version t).mono (Nat.zero_le _) (Nat.le_refl _)

/-- The structures of the SyncGroup messages. -/
def workSyncGroup : List (Σ M : MsgType, Int16 → M.T → ADec M.T) :=
  [⟨SyncGroupRequest.type, SyncGroupRequest.decodeW⟩,
   ⟨SyncGroupRequestAssignment14.type, SyncGroupRequestAssignment14.decodeW⟩,
   ⟨SyncGroupResponse.type, SyncGroupResponse.decodeW⟩]
theorem workSyncGroup_erases : ∀ p ∈ workSyncGroup, ∀ v t, Erases (p.2 v t) (p.1.decode v t) := by
  unfold workSyncGroup
  simp only [List.forall_mem_cons]
  exact ⟨SyncGroupRequest.erasesW, SyncGroupRequestAssignment14.erasesW, SyncGroupResponse.erasesW, fun _ h => absurd h (by simp)⟩
theorem workSyncGroup_spends : ∀ p ∈ workSyncGroup, ∀ v t, Spends (p.2 v t) 0 1 := by
  unfold workSyncGroup
  simp only [List.forall_mem_cons]
  exact ⟨SyncGroupRequest.spends0, SyncGroupRequestAssignment14.spends0, SyncGroupResponse.spends0, fun _ h => absurd h (by simp)⟩

end Kafka.Msg
