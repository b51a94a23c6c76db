import Verif.Message.Work
import Verif.Gen.Model.DeleteAcls
/-!
Generated by tools/gen_messages.py: steps taken by decoding the DeleteAcls messages.
-/
namespace Kafka.Msg

/-- message/messages.gen.go:8198-8231 `DeleteAclsFilter31.Decode`, with the steps it takes -/
def DeleteAclsFilter31.decodeW (version : Int16) : DeleteAclsFilter31 → ADec DeleteAclsFilter31 :=
    ADec.field WDec.int8 (fun t x => { t with ResourceTypeFilter := x }) ;>>
    ADec.field WDec.string (fun t x => { t with ResourceNameFilter := x }) ;>>
    ADec.onlyIf (version ≥ 1) (ADec.field WDec.int8 (fun t x => { t with PatternTypeFilter := x })) ;>>
    ADec.field WDec.string (fun t x => { t with PrincipalFilter := x }) ;>>
    ADec.field WDec.string (fun t x => { t with HostFilter := x }) ;>>
    ADec.field WDec.int8 (fun t x => { t with Operation := x }) ;>>
    ADec.field WDec.int8 (fun t x => { t with PermissionType := x })
theorem DeleteAclsFilter31.erasesW (version : Int16) (t : DeleteAclsFilter31) : Erases (DeleteAclsFilter31.decodeW version t) (DeleteAclsFilter31.decode version t) :=
  ((ErasesStep.field (.read _))
    |>.andThen (ErasesStep.field .stringW)
    |>.andThen (ErasesStep.onlyIf (ErasesStep.field (.read _)))
    |>.andThen (ErasesStep.field .stringW)
    |>.andThen (ErasesStep.field .stringW)
    |>.andThen (ErasesStep.field (.read _))
    |>.andThen (ErasesStep.field (.read _)) : ErasesStep _ _) t
theorem DeleteAclsFilter31.spends (version : Int16) (t : DeleteAclsFilter31) : Spends (DeleteAclsFilter31.decodeW version t) 12 1 :=
  (((SpendsStep.field .int8)
    |>.andThen (SpendsStep.field .string)
    |>.andThen (SpendsStep.onlyIf (fun _ => SpendsStep.field .int8))
    |>.andThen (SpendsStep.field .string)
    |>.andThen (SpendsStep.field .string)
    |>.andThen (SpendsStep.field .int8)
    |>.andThen (SpendsStep.field .int8) : SpendsStep _ _) t).mono (by decide) (by decide)
theorem DeleteAclsFilter31.spends0 (version : Int16) (t : DeleteAclsFilter31) : Spends (DeleteAclsFilter31.decodeW version t) 0 1 :=
  (DeleteAclsFilter31.spends version t).mono (Nat.zero_le _) (Nat.le_refl _)

/-- message/messages.gen.go:8141-8157 `DeleteAclsRequest.Decode`, with the steps it takes -/
def DeleteAclsRequest.decodeW (version : Int16) : DeleteAclsRequest → ADec DeleteAclsRequest :=
    WDec.fieldStructs (DeleteAclsFilter31.decodeW version {}) (·.Filters) (fun t x => { t with Filters := x })
theorem DeleteAclsRequest.erasesW (version : Int16) (t : DeleteAclsRequest) : Erases (DeleteAclsRequest.decodeW version t) (DeleteAclsRequest.decode version t) :=
  (ErasesStep.structsW (DeleteAclsFilter31.erasesW version {}) : ErasesStep _ _) t
theorem DeleteAclsRequest.spends (version : Int16) (t : DeleteAclsRequest) : Spends (DeleteAclsRequest.decodeW version t) 7 1 :=
  ((SpendsStep.structs ((DeleteAclsFilter31.spends version {}).mono (by decide) (Nat.le_refl _)) : SpendsStep _ _) t).mono (by decide) (by decide)
theorem DeleteAclsRequest.spends0 (version : Int16) (t : DeleteAclsRequest) : Spends (DeleteAclsRequest.decodeW version t) 0 1 :=
  (DeleteAclsRequest.spends version t).mono (Nat.zero_le _) (Nat.le_refl _)

/-- message/messages.gen.go:8386-8427 `DeleteAclsMatchingAcl31.Decode`, with the steps it takes -/
def DeleteAclsMatchingAcl31.decodeW (version : Int16) : DeleteAclsMatchingAcl31 → ADec DeleteAclsMatchingAcl31 :=
    ADec.field WDec.int16 (fun t x => { t with ErrorCode := x }) ;>>
    ADec.field WDec.string (fun t x => { t with ErrorMessage := x }) ;>>
    ADec.field WDec.int8 (fun t x => { t with ResourceType := x }) ;>>
    ADec.field WDec.string (fun t x => { t with ResourceName := x }) ;>>
    ADec.onlyIf (version ≥ 1) (ADec.field WDec.int8 (fun t x => { t with PatternType := x })) ;>>
    ADec.field WDec.string (fun t x => { t with Principal := x }) ;>>
    ADec.field WDec.string (fun t x => { t with Host := x }) ;>>
    ADec.field WDec.int8 (fun t x => { t with Operation := x }) ;>>
    ADec.field WDec.int8 (fun t x => { t with PermissionType := x })
theorem DeleteAclsMatchingAcl31.erasesW (version : Int16) (t : DeleteAclsMatchingAcl31) : Erases (DeleteAclsMatchingAcl31.decodeW version t) (DeleteAclsMatchingAcl31.decode version t) :=
  ((ErasesStep.field (.read _))
    |>.andThen (ErasesStep.field .stringW)
    |>.andThen (ErasesStep.field (.read _))
    |>.andThen (ErasesStep.field .stringW)
    |>.andThen (ErasesStep.onlyIf (ErasesStep.field (.read _)))
    |>.andThen (ErasesStep.field .stringW)
    |>.andThen (ErasesStep.field .stringW)
    |>.andThen (ErasesStep.field (.read _))
    |>.andThen (ErasesStep.field (.read _)) : ErasesStep _ _) t
theorem DeleteAclsMatchingAcl31.spends (version : Int16) (t : DeleteAclsMatchingAcl31) : Spends (DeleteAclsMatchingAcl31.decodeW version t) 18 1 :=
  (((SpendsStep.field .int16)
    |>.andThen (SpendsStep.field .string)
    |>.andThen (SpendsStep.field .int8)
    |>.andThen (SpendsStep.field .string)
    |>.andThen (SpendsStep.onlyIf (fun _ => SpendsStep.field .int8))
    |>.andThen (SpendsStep.field .string)
    |>.andThen (SpendsStep.field .string)
    |>.andThen (SpendsStep.field .int8)
    |>.andThen (SpendsStep.field .int8) : SpendsStep _ _) t).mono (by decide) (by decide)
theorem DeleteAclsMatchingAcl31.spends0 (version : Int16) (t : DeleteAclsMatchingAcl31) : Spends (DeleteAclsMatchingAcl31.decodeW version t) 0 1 :=
  (DeleteAclsMatchingAcl31.spends version t).mono (Nat.zero_le _) (Nat.le_refl _)

/-- message/messages.gen.go:8315-8339 `DeleteAclsFilterResult31.Decode`, with the steps it takes -/
def DeleteAclsFilterResult31.decodeW (version : Int16) : DeleteAclsFilterResult31 → ADec DeleteAclsFilterResult31 :=
    ADec.field WDec.int16 (fun t x => { t with ErrorCode := x }) ;>>
    ADec.field WDec.string (fun t x => { t with ErrorMessage := x }) ;>>
    WDec.fieldStructs (DeleteAclsMatchingAcl31.decodeW version {}) (·.MatchingAcls) (fun t x => { t with MatchingAcls := x })
theorem DeleteAclsFilterResult31.erasesW (version : Int16) (t : DeleteAclsFilterResult31) : Erases (DeleteAclsFilterResult31.decodeW version t) (DeleteAclsFilterResult31.decode version t) :=
  ((ErasesStep.field (.read _))
    |>.andThen (ErasesStep.field .stringW)
    |>.andThen (ErasesStep.structsW (DeleteAclsMatchingAcl31.erasesW version {})) : ErasesStep _ _) t
theorem DeleteAclsFilterResult31.spends (version : Int16) (t : DeleteAclsFilterResult31) : Spends (DeleteAclsFilterResult31.decodeW version t) 13 1 :=
  (((SpendsStep.field .int16)
    |>.andThen (SpendsStep.field .string)
    |>.andThen (SpendsStep.structs ((DeleteAclsMatchingAcl31.spends version {}).mono (by decide) (Nat.le_refl _))) : SpendsStep _ _) t).mono (by decide) (by decide)
theorem DeleteAclsFilterResult31.spends0 (version : Int16) (t : DeleteAclsFilterResult31) : Spends (DeleteAclsFilterResult31.decodeW version t) 0 1 :=
  (DeleteAclsFilterResult31.spends version t).mono (Nat.zero_le _) (Nat.le_refl _)

/-- message/messages.gen.go:8262-8282 `DeleteAclsResponse.Decode`, with the steps it takes -/
def DeleteAclsResponse.decodeW (version : Int16) : DeleteAclsResponse → ADec DeleteAclsResponse :=
    ADec.field WDec.int32 (fun t x => { t with ThrottleTimeMs := x }) ;>>
    WDec.fieldStructs (DeleteAclsFilterResult31.decodeW version {}) (·.FilterResults) (fun t x => { t with FilterResults := x })
theorem DeleteAclsResponse.erasesW (version : Int16) (t : DeleteAclsResponse) : Erases (DeleteAclsResponse.decodeW version t) (DeleteAclsResponse.decode version t) :=
  ((ErasesStep.field (.read _))
    |>.andThen (ErasesStep.structsW (DeleteAclsFilterResult31.erasesW version {})) : ErasesStep _ _) t
theorem DeleteAclsResponse.spends (version : Int16) (t : DeleteAclsResponse) : Spends (DeleteAclsResponse.decodeW version t) 14 1 :=
  (((SpendsStep.field .int32)
    |>.andThen (SpendsStep.structs ((DeleteAclsFilterResult31.spends version {}).mono (by decide) (Nat.le_refl _))) : SpendsStep _ _) t).mono (by decide) (by decide)
theorem DeleteAclsResponse.spends0 (version : Int16) (t : DeleteAclsResponse) : Spends (DeleteAclsResponse.decodeW version t) 0 1 :=
  (DeleteAclsResponse.spends version t).mono (Nat.zero_le _) (Nat.le_refl _)

/-- The structures of the DeleteAcls messages. -/
def workDeleteAcls : List (Σ M : MsgType, Int16 → M.T → ADec M.T) :=
  [⟨DeleteAclsRequest.type, DeleteAclsRequest.decodeW⟩,
   ⟨DeleteAclsFilter31.type, DeleteAclsFilter31.decodeW⟩,
   ⟨DeleteAclsResponse.type, DeleteAclsResponse.decodeW⟩,
   ⟨DeleteAclsFilterResult31.type, DeleteAclsFilterResult31.decodeW⟩,
   ⟨DeleteAclsMatchingAcl31.type, DeleteAclsMatchingAcl31.decodeW⟩]
theorem workDeleteAcls_erases : ∀ p ∈ workDeleteAcls, ∀ v t, Erases (p.2 v t) (p.1.decode v t) := by
  unfold workDeleteAcls
  simp only [List.forall_mem_cons]
  exact ⟨DeleteAclsRequest.erasesW, DeleteAclsFilter31.erasesW, DeleteAclsResponse.erasesW, DeleteAclsFilterResult31.erasesW, DeleteAclsMatchingAcl31.erasesW, fun _ h => absurd h (by simp)⟩
theorem workDeleteAcls_spends : ∀ p ∈ workDeleteAcls, ∀ v t, Spends (p.2 v t) 0 1 := by
  unfold workDeleteAcls
  simp only [List.forall_mem_cons]
  exact ⟨DeleteAclsRequest.spends0, DeleteAclsFilter31.spends0, DeleteAclsResponse.spends0, DeleteAclsFilterResult31.spends0, DeleteAclsMatchingAcl31.spends0, fun _ h => absurd h (by simp)⟩

end Kafka.Msg
