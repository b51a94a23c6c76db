import Verif.Message.Work
import Verif.Gen.Model.ListGroups
/-!
Generated by tools/gen_messages.py: steps taken by decoding the ListGroups messages.
-/
namespace Kafka.Msg

/-- message/messages.gen.go:5045-5048 `ListGroupsRequest.Decode`, with the steps it takes -/
def ListGroupsRequest.decodeW (_version : Int16) : ListGroupsRequest → ADec ListGroupsRequest :=
    ADec.nop
theorem ListGroupsRequest.erasesW (version : Int16) (t : ListGroupsRequest) : Erases (ListGroupsRequest.decodeW version t) (ListGroupsRequest.decode version t) :=
  (ErasesStep.nop : ErasesStep _ _) t
theorem ListGroupsRequest.spends (version : Int16) (t : ListGroupsRequest) : Spends (ListGroupsRequest.decodeW version t) 0 1 :=
  ((SpendsStep.nop : SpendsStep _ _) t).mono (by decide) (by decide)
theorem ListGroupsRequest.spends0 (version : Int16) (t : ListGroupsRequest) : Spends (ListGroupsRequest.decodeW version t) 0 1 :=
  (ListGroupsRequest.spends version t).mono (Nat.zero_le _) (Nat.le_refl _)

/-- message/messages.gen.go:5134-5145 `ListedGroup16.Decode`, with the steps it takes -/
def ListedGroup16.decodeW (_version : Int16) : ListedGroup16 → ADec ListedGroup16 :=
    ADec.field WDec.string (fun t x => { t with GroupId := x }) ;>>
    ADec.field WDec.string (fun t x => { t with ProtocolType := x })
theorem ListedGroup16.erasesW (version : Int16) (t : ListedGroup16) : Erases (ListedGroup16.decodeW version t) (ListedGroup16.decode version t) :=
  ((ErasesStep.field .stringW)
    |>.andThen (ErasesStep.field .stringW) : ErasesStep _ _) t
theorem ListedGroup16.spends (version : Int16) (t : ListedGroup16) : Spends (ListedGroup16.decodeW version t) 6 1 :=
  (((SpendsStep.field .string)
    |>.andThen (SpendsStep.field .string) : SpendsStep _ _) t).mono (by decide) (by decide)
theorem ListedGroup16.spends0 (version : Int16) (t : ListedGroup16) : Spends (ListedGroup16.decodeW version t) 0 1 :=
  (ListedGroup16.spends version t).mono (Nat.zero_le _) (Nat.le_refl _)

/-- message/messages.gen.go:5086-5112 `ListGroupsResponse.Decode`, with the steps it takes -/
def ListGroupsResponse.decodeW (version : Int16) : ListGroupsResponse → ADec ListGroupsResponse :=
    ADec.onlyIf (version ≥ 1) (ADec.field WDec.int32 (fun t x => { t with ThrottleTimeMs := x })) ;>>
    ADec.field WDec.int16 (fun t x => { t with ErrorCode := x }) ;>>
    WDec.fieldStructs (ListedGroup16.decodeW version {}) (·.Groups) (fun t x => { t with Groups := x })
theorem ListGroupsResponse.erasesW (version : Int16) (t : ListGroupsResponse) : Erases (ListGroupsResponse.decodeW version t) (ListGroupsResponse.decode version t) :=
  ((ErasesStep.onlyIf (ErasesStep.field (.read _)))
    |>.andThen (ErasesStep.field (.read _))
    |>.andThen (ErasesStep.structsW (ListedGroup16.erasesW version {})) : ErasesStep _ _) t
theorem ListGroupsResponse.spends (version : Int16) (t : ListGroupsResponse) : Spends (ListGroupsResponse.decodeW version t) 10 1 :=
  (((SpendsStep.onlyIf (fun _ => SpendsStep.field .int32))
    |>.andThen (SpendsStep.field .int16)
    |>.andThen (SpendsStep.structs ((ListedGroup16.spends version {}).mono (by decide) (Nat.le_refl _))) : SpendsStep _ _) t).mono (by decide) (by decide)
theorem ListGroupsResponse.spends0 (version : Int16) (t : ListGroupsResponse) : Spends (ListGroupsResponse.decodeW version t) 0 1 :=
  (ListGroupsResponse.spends version t).mono (Nat.zero_le _) (Nat.le_refl _)

/-- The structures of the ListGroups messages. -/
def workListGroups : List (Σ M : MsgType, Int16 → M.T → ADec M.T) :=
  [⟨ListGroupsRequest.type, ListGroupsRequest.decodeW⟩,
   ⟨ListGroupsResponse.type, ListGroupsResponse.decodeW⟩,
   ⟨ListedGroup16.type, ListedGroup16.decodeW⟩]
theorem workListGroups_erases : ∀ p ∈ workListGroups, ∀ v t, Erases (p.2 v t) (p.1.decode v t) := by
  unfold workListGroups
  simp only [List.forall_mem_cons]
  exact ⟨ListGroupsRequest.erasesW, ListGroupsResponse.erasesW, ListedGroup16.erasesW, fun _ h => absurd h (by simp)⟩
theorem workListGroups_spends : ∀ p ∈ workListGroups, ∀ v t, Spends (p.2 v t) 0 1 := by
  unfold workListGroups
  simp only [List.forall_mem_cons]
  exact ⟨ListGroupsRequest.spends0, ListGroupsResponse.spends0, ListedGroup16.spends0, fun _ h => absurd h (by simp)⟩

end Kafka.Msg
