import Verif.Message.Work
import Verif.Gen.Model.CreateAcls
/-!
Generated by tools/gen_messages.py: steps taken by decoding the CreateAcls messages.
-/
namespace Kafka.Msg

/-- message/messages.gen.go:7996-8029 `CreatableAcl30.Decode`, with the steps it takes -/
def CreatableAcl30.decodeW (version : Int16) : CreatableAcl30 → ADec CreatableAcl30 :=
    ADec.field WDec.int8 (fun t x => { t with ResourceType := x }) ;>>
    ADec.field WDec.string (fun t x => { t with ResourceName := x }) ;>>
    ADec.onlyIf (version ≥ 1) (ADec.field WDec.int8 (fun t x => { t with ResourcePatternType := x })) ;>>
    ADec.field WDec.string (fun t x => { t with Principal := x }) ;>>
    ADec.field WDec.string (fun t x => { t with Host := x }) ;>>
    ADec.field WDec.int8 (fun t x => { t with Operation := x }) ;>>
    ADec.field WDec.int8 (fun t x => { t with PermissionType := x })
theorem CreatableAcl30.erasesW (version : Int16) (t : CreatableAcl30) : Erases (CreatableAcl30.decodeW version t) (CreatableAcl30.decode version t) :=
  ((ErasesStep.field (.read _))
    |>.andThen (ErasesStep.field .stringW)
    |>.andThen (ErasesStep.onlyIf (ErasesStep.field (.read _)))
    |>.andThen (ErasesStep.field .stringW)
    |>.andThen (ErasesStep.field .stringW)
    |>.andThen (ErasesStep.field (.read _))
    |>.andThen (ErasesStep.field (.read _)) : ErasesStep _ _) t
theorem CreatableAcl30.spends (version : Int16) (t : CreatableAcl30) : Spends (CreatableAcl30.decodeW version t) 12 1 :=
  (((SpendsStep.field .int8)
    |>.andThen (SpendsStep.field .string)
    |>.andThen (SpendsStep.onlyIf (fun _ => SpendsStep.field .int8))
    |>.andThen (SpendsStep.field .string)
    |>.andThen (SpendsStep.field .string)
    |>.andThen (SpendsStep.field .int8)
    |>.andThen (SpendsStep.field .int8) : SpendsStep _ _) t).mono (by decide) (by decide)
theorem CreatableAcl30.spends0 (version : Int16) (t : CreatableAcl30) : Spends (CreatableAcl30.decodeW version t) 0 1 :=
  (CreatableAcl30.spends version t).mono (Nat.zero_le _) (Nat.le_refl _)

/-- message/messages.gen.go:7939-7955 `CreateAclsRequest.Decode`, with the steps it takes -/
def CreateAclsRequest.decodeW (version : Int16) : CreateAclsRequest → ADec CreateAclsRequest :=
    WDec.fieldStructs (CreatableAcl30.decodeW version {}) (·.Creations) (fun t x => { t with Creations := x })
theorem CreateAclsRequest.erasesW (version : Int16) (t : CreateAclsRequest) : Erases (CreateAclsRequest.decodeW version t) (CreateAclsRequest.decode version t) :=
  (ErasesStep.structsW (CreatableAcl30.erasesW version {}) : ErasesStep _ _) t
theorem CreateAclsRequest.spends (version : Int16) (t : CreateAclsRequest) : Spends (CreateAclsRequest.decodeW version t) 7 1 :=
  ((SpendsStep.structs ((CreatableAcl30.spends version {}).mono (by decide) (Nat.le_refl _)) : SpendsStep _ _) t).mono (by decide) (by decide)
theorem CreateAclsRequest.spends0 (version : Int16) (t : CreateAclsRequest) : Spends (CreateAclsRequest.decodeW version t) 0 1 :=
  (CreateAclsRequest.spends version t).mono (Nat.zero_le _) (Nat.le_refl _)

/-- message/messages.gen.go:8102-8113 `CreatableAclResult30.Decode`, with the steps it takes -/
def CreatableAclResult30.decodeW (_version : Int16) : CreatableAclResult30 → ADec CreatableAclResult30 :=
    ADec.field WDec.int16 (fun t x => { t with ErrorCode := x }) ;>>
    ADec.field WDec.string (fun t x => { t with ErrorMessage := x })
theorem CreatableAclResult30.erasesW (version : Int16) (t : CreatableAclResult30) : Erases (CreatableAclResult30.decodeW version t) (CreatableAclResult30.decode version t) :=
  ((ErasesStep.field (.read _))
    |>.andThen (ErasesStep.field .stringW) : ErasesStep _ _) t
theorem CreatableAclResult30.spends (version : Int16) (t : CreatableAclResult30) : Spends (CreatableAclResult30.decodeW version t) 6 1 :=
  (((SpendsStep.field .int16)
    |>.andThen (SpendsStep.field .string) : SpendsStep _ _) t).mono (by decide) (by decide)
theorem CreatableAclResult30.spends0 (version : Int16) (t : CreatableAclResult30) : Spends (CreatableAclResult30.decodeW version t) 0 1 :=
  (CreatableAclResult30.spends version t).mono (Nat.zero_le _) (Nat.le_refl _)

/-- message/messages.gen.go:8060-8080 `CreateAclsResponse.Decode`, with the steps it takes -/
def CreateAclsResponse.decodeW (version : Int16) : CreateAclsResponse → ADec CreateAclsResponse :=
    ADec.field WDec.int32 (fun t x => { t with ThrottleTimeMs := x }) ;>>
    WDec.fieldStructs (CreatableAclResult30.decodeW version {}) (·.Results) (fun t x => { t with Results := x })
theorem CreateAclsResponse.erasesW (version : Int16) (t : CreateAclsResponse) : Erases (CreateAclsResponse.decodeW version t) (CreateAclsResponse.decode version t) :=
  ((ErasesStep.field (.read _))
    |>.andThen (ErasesStep.structsW (CreatableAclResult30.erasesW version {})) : ErasesStep _ _) t
theorem CreateAclsResponse.spends (version : Int16) (t : CreateAclsResponse) : Spends (CreateAclsResponse.decodeW version t) 14 1 :=
  (((SpendsStep.field .int32)
    |>.andThen (SpendsStep.structs ((CreatableAclResult30.spends version {}).mono (by decide) (Nat.le_refl _))) : SpendsStep _ _) t).mono (by decide) (by decide)
theorem CreateAclsResponse.spends0 (version : Int16) (t : CreateAclsResponse) : Spends (CreateAclsResponse.decodeW version t) 0 1 :=
  (CreateAclsResponse.spends version t).mono (Nat.zero_le _) (Nat.le_refl _)

/-- The structures of the CreateAcls messages. -/
def workCreateAcls : List (Σ M : MsgType, Int16 → M.T → ADec M.T) :=
  [⟨CreateAclsRequest.type, CreateAclsRequest.decodeW⟩,
   ⟨CreatableAcl30.type, CreatableAcl30.decodeW⟩,
   ⟨CreateAclsResponse.type, CreateAclsResponse.decodeW⟩,
   ⟨CreatableAclResult30.type, CreatableAclResult30.decodeW⟩]
theorem workCreateAcls_erases : ∀ p ∈ workCreateAcls, ∀ v t, Erases (p.2 v t) (p.1.decode v t) := by
  unfold workCreateAcls
  simp only [List.forall_mem_cons]
  exact ⟨CreateAclsRequest.erasesW, CreatableAcl30.erasesW, CreateAclsResponse.erasesW, CreatableAclResult30.erasesW, fun _ h => absurd h (by simp)⟩
theorem workCreateAcls_spends : ∀ p ∈ workCreateAcls, ∀ v t, Spends (p.2 v t) 0 1 := by
  unfold workCreateAcls
  simp only [List.forall_mem_cons]
  exact ⟨CreateAclsRequest.spends0, CreatableAcl30.spends0, CreateAclsResponse.spends0, CreatableAclResult30.spends0, fun _ h => absurd h (by simp)⟩

end Kafka.Msg
