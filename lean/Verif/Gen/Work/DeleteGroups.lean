import Verif.Message.Work
import Verif.Gen.Model.DeleteGroups
/-!
Generated by tools/gen_messages.py: steps taken by decoding the DeleteGroups messages.
-/
namespace Kafka.Msg

/-- message/messages.gen.go:10499-10506 `DeleteGroupsRequest.Decode`, with the steps it takes -/
def DeleteGroupsRequest.decodeW (_version : Int16) : DeleteGroupsRequest → ADec DeleteGroupsRequest :=
    ADec.field WDec.stringArray (fun t x => { t with GroupsNames := x })
theorem DeleteGroupsRequest.erasesW (version : Int16) (t : DeleteGroupsRequest) : Erases (DeleteGroupsRequest.decodeW version t) (DeleteGroupsRequest.decode version t) :=
  (ErasesStep.field (.arrayOfW .stringW) : ErasesStep _ _) t
theorem DeleteGroupsRequest.spends (version : Int16) (t : DeleteGroupsRequest) : Spends (DeleteGroupsRequest.decodeW version t) 7 1 :=
  ((SpendsStep.field .stringArray : SpendsStep _ _) t).mono (by decide) (by decide)
theorem DeleteGroupsRequest.spends0 (version : Int16) (t : DeleteGroupsRequest) : Spends (DeleteGroupsRequest.decodeW version t) 0 1 :=
  (DeleteGroupsRequest.spends version t).mono (Nat.zero_le _) (Nat.le_refl _)

/-- message/messages.gen.go:10579-10590 `DeletableGroupResult42.Decode`, with the steps it takes -/
def DeletableGroupResult42.decodeW (_version : Int16) : DeletableGroupResult42 → ADec DeletableGroupResult42 :=
    ADec.field WDec.string (fun t x => { t with GroupId := x }) ;>>
    ADec.field WDec.int16 (fun t x => { t with ErrorCode := x })
theorem DeletableGroupResult42.erasesW (version : Int16) (t : DeletableGroupResult42) : Erases (DeletableGroupResult42.decodeW version t) (DeletableGroupResult42.decode version t) :=
  ((ErasesStep.field .stringW)
    |>.andThen (ErasesStep.field (.read _)) : ErasesStep _ _) t
theorem DeletableGroupResult42.spends (version : Int16) (t : DeletableGroupResult42) : Spends (DeletableGroupResult42.decodeW version t) 6 1 :=
  (((SpendsStep.field .string)
    |>.andThen (SpendsStep.field .int16) : SpendsStep _ _) t).mono (by decide) (by decide)
theorem DeletableGroupResult42.spends0 (version : Int16) (t : DeletableGroupResult42) : Spends (DeletableGroupResult42.decodeW version t) 0 1 :=
  (DeletableGroupResult42.spends version t).mono (Nat.zero_le _) (Nat.le_refl _)

/-- message/messages.gen.go:10537-10557 `DeleteGroupsResponse.Decode`, with the steps it takes -/
def DeleteGroupsResponse.decodeW (version : Int16) : DeleteGroupsResponse → ADec DeleteGroupsResponse :=
    ADec.field WDec.int32 (fun t x => { t with ThrottleTimeMs := x }) ;>>
    WDec.fieldStructs (DeletableGroupResult42.decodeW version {}) (·.Results) (fun t x => { t with Results := x })
theorem DeleteGroupsResponse.erasesW (version : Int16) (t : DeleteGroupsResponse) : Erases (DeleteGroupsResponse.decodeW version t) (DeleteGroupsResponse.decode version t) :=
  ((ErasesStep.field (.read _))
    |>.andThen (ErasesStep.structsW (DeletableGroupResult42.erasesW version {})) : ErasesStep _ _) t
theorem DeleteGroupsResponse.spends (version : Int16) (t : DeleteGroupsResponse) : Spends (DeleteGroupsResponse.decodeW version t) 14 1 :=
  (((SpendsStep.field .int32)
    |>.andThen (SpendsStep.structs ((DeletableGroupResult42.spends version {}).mono (by decide) (Nat.le_refl _))) : SpendsStep _ _) t).mono (by decide) (by decide)
theorem DeleteGroupsResponse.spends0 (version : Int16) (t : DeleteGroupsResponse) : Spends (DeleteGroupsResponse.decodeW version t) 0 1 :=
  (DeleteGroupsResponse.spends version t).mono (Nat.zero_le _) (Nat.le_refl _)

/-- The structures of the DeleteGroups messages. -/
def workDeleteGroups : List (Σ M : MsgType, Int16 → M.T → ADec M.T) :=
  [⟨DeleteGroupsRequest.type, DeleteGroupsRequest.decodeW⟩,
   ⟨DeleteGroupsResponse.type, DeleteGroupsResponse.decodeW⟩,
   ⟨DeletableGroupResult42.type, DeletableGroupResult42.decodeW⟩]
theorem workDeleteGroups_erases : ∀ p ∈ workDeleteGroups, ∀ v t, Erases (p.2 v t) (p.1.decode v t) := by
  unfold workDeleteGroups
  simp only [List.forall_mem_cons]
  exact ⟨DeleteGroupsRequest.erasesW, DeleteGroupsResponse.erasesW, DeletableGroupResult42.erasesW, fun _ h => absurd h (by simp)⟩
theorem workDeleteGroups_spends : ∀ p ∈ workDeleteGroups, ∀ v t, Spends (p.2 v t) 0 1 := by
  unfold workDeleteGroups
  simp only [List.forall_mem_cons]
  exact ⟨DeleteGroupsRequest.spends0, DeleteGroupsResponse.spends0, DeletableGroupResult42.spends0, fun _ h => absurd h (by simp)⟩

end Kafka.Msg
