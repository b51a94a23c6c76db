import Verif.Message.Work
import Verif.Gen.Model.FindCoordinator
/-!
Generated by tools/gen_messages.py: steps taken by decoding the FindCoordinator messages.
-/
namespace Kafka.Msg

/-- message/messages.gen.go:3922-3935 `FindCoordinatorRequest.Decode`, with the steps it takes -/
def FindCoordinatorRequest.decodeW (version : Int16) : FindCoordinatorRequest → ADec FindCoordinatorRequest :=
    ADec.field WDec.string (fun t x => { t with Key := x }) ;>>
    ADec.onlyIf (version ≥ 1) (ADec.field WDec.int8 (fun t x => { t with KeyType := x }))
theorem FindCoordinatorRequest.erasesW (version : Int16) (t : FindCoordinatorRequest) : Erases (FindCoordinatorRequest.decodeW version t) (FindCoordinatorRequest.decode version t) :=
  ((ErasesStep.field .stringW)
    |>.andThen (ErasesStep.onlyIf (ErasesStep.field (.read _))) : ErasesStep _ _) t
theorem FindCoordinatorRequest.spends (version : Int16) (t : FindCoordinatorRequest) : Spends (FindCoordinatorRequest.decodeW version t) 3 1 :=
  (((SpendsStep.field .string)
    |>.andThen (SpendsStep.onlyIf (fun _ => SpendsStep.field .int8)) : SpendsStep _ _) t).mono (by decide) (by decide)
theorem FindCoordinatorRequest.spends0 (version : Int16) (t : FindCoordinatorRequest) : Spends (FindCoordinatorRequest.decodeW version t) 0 1 :=
  (FindCoordinatorRequest.spends version t).mono (Nat.zero_le _) (Nat.le_refl _)

/-- message/messages.gen.go:3978-4009 `FindCoordinatorResponse.Decode`, with the steps it takes -/
def FindCoordinatorResponse.decodeW (version : Int16) : FindCoordinatorResponse → ADec FindCoordinatorResponse :=
    ADec.onlyIf (version ≥ 1) (ADec.field WDec.int32 (fun t x => { t with ThrottleTimeMs := x })) ;>>
    ADec.field WDec.int16 (fun t x => { t with ErrorCode := x }) ;>>
    ADec.onlyIf (version ≥ 1) (ADec.field WDec.string (fun t x => { t with ErrorMessage := x })) ;>>
    ADec.field WDec.int32 (fun t x => { t with NodeId := x }) ;>>
    ADec.field WDec.string (fun t x => { t with Host := x }) ;>>
    ADec.field WDec.int32 (fun t x => { t with Port := x })
theorem FindCoordinatorResponse.erasesW (version : Int16) (t : FindCoordinatorResponse) : Erases (FindCoordinatorResponse.decodeW version t) (FindCoordinatorResponse.decode version t) :=
  ((ErasesStep.onlyIf (ErasesStep.field (.read _)))
    |>.andThen (ErasesStep.field (.read _))
    |>.andThen (ErasesStep.onlyIf (ErasesStep.field .stringW))
    |>.andThen (ErasesStep.field (.read _))
    |>.andThen (ErasesStep.field .stringW)
    |>.andThen (ErasesStep.field (.read _)) : ErasesStep _ _) t
theorem FindCoordinatorResponse.spends (version : Int16) (t : FindCoordinatorResponse) : Spends (FindCoordinatorResponse.decodeW version t) 20 1 :=
  (((SpendsStep.onlyIf (fun _ => SpendsStep.field .int32))
    |>.andThen (SpendsStep.field .int16)
    |>.andThen (SpendsStep.onlyIf (fun _ => SpendsStep.field .string))
    |>.andThen (SpendsStep.field .int32)
    |>.andThen (SpendsStep.field .string)
    |>.andThen (SpendsStep.field .int32) : SpendsStep _ _) t).mono (by decide) (by decide)
theorem FindCoordinatorResponse.spends0 (version : Int16) (t : FindCoordinatorResponse) : Spends (FindCoordinatorResponse.decodeW version t) 0 1 :=
  (FindCoordinatorResponse.spends version t).mono (Nat.zero_le _) (Nat.le_refl _)

/-- The structures of the FindCoordinator messages. -/
def workFindCoordinator : List (Σ M : MsgType, Int16 → M.T → ADec M.T) :=
  [⟨FindCoordinatorRequest.type, FindCoordinatorRequest.decodeW⟩,
   ⟨FindCoordinatorResponse.type, FindCoordinatorResponse.decodeW⟩]
theorem workFindCoordinator_erases : ∀ p ∈ workFindCoordinator, ∀ v t, Erases (p.2 v t) (p.1.decode v t) := by
  unfold workFindCoordinator
  simp only [List.forall_mem_cons]
  exact ⟨FindCoordinatorRequest.erasesW, FindCoordinatorResponse.erasesW, fun _ h => absurd h (by simp)⟩
theorem workFindCoordinator_spends : ∀ p ∈ workFindCoordinator, ∀ v t, Spends (p.2 v t) 0 1 := by
  unfold workFindCoordinator
  simp only [List.forall_mem_cons]
  exact ⟨FindCoordinatorRequest.spends0, FindCoordinatorResponse.spends0, fun _ h => absurd h (by simp)⟩

end Kafka.Msg
