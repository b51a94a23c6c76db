import Verif.Message.Work
import Verif.Gen.Model.DescribeAcls
/-!
Generated by tools/gen_messages.py: steps taken by decoding the DescribeAcls messages.
-/
namespace Kafka.Msg

/-- message/messages.gen.go:7696-7729 `DescribeAclsRequest.Decode`, with the steps it takes -/
def DescribeAclsRequest.decodeW (version : Int16) : DescribeAclsRequest → ADec DescribeAclsRequest :=
    ADec.field WDec.int8 (fun t x => { t with ResourceType := x }) ;>>
    ADec.field WDec.string (fun t x => { t with ResourceNameFilter := x }) ;>>
    ADec.onlyIf (version ≥ 1) (ADec.field WDec.int8 (fun t x => { t with ResourcePatternType := x })) ;>>
    ADec.field WDec.string (fun t x => { t with PrincipalFilter := x }) ;>>
    ADec.field WDec.string (fun t x => { t with HostFilter := x }) ;>>
    ADec.field WDec.int8 (fun t x => { t with Operation := x }) ;>>
    ADec.field WDec.int8 (fun t x => { t with PermissionType := x })
theorem DescribeAclsRequest.erasesW (version : Int16) (t : DescribeAclsRequest) : Erases (DescribeAclsRequest.decodeW version t) (DescribeAclsRequest.decode version t) :=
  ((ErasesStep.field (.read _))
    |>.andThen (ErasesStep.field .stringW)
    |>.andThen (ErasesStep.onlyIf (ErasesStep.field (.read _)))
    |>.andThen (ErasesStep.field .stringW)
    |>.andThen (ErasesStep.field .stringW)
    |>.andThen (ErasesStep.field (.read _))
    |>.andThen (ErasesStep.field (.read _)) : ErasesStep _ _) t
theorem DescribeAclsRequest.spends (version : Int16) (t : DescribeAclsRequest) : Spends (DescribeAclsRequest.decodeW version t) 12 1 :=
  (((SpendsStep.field .int8)
    |>.andThen (SpendsStep.field .string)
    |>.andThen (SpendsStep.onlyIf (fun _ => SpendsStep.field .int8))
    |>.andThen (SpendsStep.field .string)
    |>.andThen (SpendsStep.field .string)
    |>.andThen (SpendsStep.field .int8)
    |>.andThen (SpendsStep.field .int8) : SpendsStep _ _) t).mono (by decide) (by decide)
theorem DescribeAclsRequest.spends0 (version : Int16) (t : DescribeAclsRequest) : Spends (DescribeAclsRequest.decodeW version t) 0 1 :=
  (DescribeAclsRequest.spends version t).mono (Nat.zero_le _) (Nat.le_refl _)

/-- message/messages.gen.go:7892-7911 `AclDescription29.Decode`, with the steps it takes -/
def AclDescription29.decodeW (_version : Int16) : AclDescription29 → ADec AclDescription29 :=
    ADec.field WDec.string (fun t x => { t with Principal := x }) ;>>
    ADec.field WDec.string (fun t x => { t with Host := x }) ;>>
    ADec.field WDec.int8 (fun t x => { t with Operation := x }) ;>>
    ADec.field WDec.int8 (fun t x => { t with PermissionType := x })
theorem AclDescription29.erasesW (version : Int16) (t : AclDescription29) : Erases (AclDescription29.decodeW version t) (AclDescription29.decode version t) :=
  ((ErasesStep.field .stringW)
    |>.andThen (ErasesStep.field .stringW)
    |>.andThen (ErasesStep.field (.read _))
    |>.andThen (ErasesStep.field (.read _)) : ErasesStep _ _) t
theorem AclDescription29.spends (version : Int16) (t : AclDescription29) : Spends (AclDescription29.decodeW version t) 8 1 :=
  (((SpendsStep.field .string)
    |>.andThen (SpendsStep.field .string)
    |>.andThen (SpendsStep.field .int8)
    |>.andThen (SpendsStep.field .int8) : SpendsStep _ _) t).mono (by decide) (by decide)
theorem AclDescription29.spends0 (version : Int16) (t : AclDescription29) : Spends (AclDescription29.decodeW version t) 0 1 :=
  (AclDescription29.spends version t).mono (Nat.zero_le _) (Nat.le_refl _)

/-- message/messages.gen.go:7834-7864 `DescribeAclsResource29.Decode`, with the steps it takes -/
def DescribeAclsResource29.decodeW (version : Int16) : DescribeAclsResource29 → ADec DescribeAclsResource29 :=
    ADec.field WDec.int8 (fun t x => { t with «Type» := x }) ;>>
    ADec.field WDec.string (fun t x => { t with Name := x }) ;>>
    ADec.onlyIf (version ≥ 1) (ADec.field WDec.int8 (fun t x => { t with PatternType := x })) ;>>
    WDec.fieldStructs (AclDescription29.decodeW version {}) (·.Acls) (fun t x => { t with Acls := x })
theorem DescribeAclsResource29.erasesW (version : Int16) (t : DescribeAclsResource29) : Erases (DescribeAclsResource29.decodeW version t) (DescribeAclsResource29.decode version t) :=
  ((ErasesStep.field (.read _))
    |>.andThen (ErasesStep.field .stringW)
    |>.andThen (ErasesStep.onlyIf (ErasesStep.field (.read _)))
    |>.andThen (ErasesStep.structsW (AclDescription29.erasesW version {})) : ErasesStep _ _) t
theorem DescribeAclsResource29.spends (version : Int16) (t : DescribeAclsResource29) : Spends (DescribeAclsResource29.decodeW version t) 11 1 :=
  (((SpendsStep.field .int8)
    |>.andThen (SpendsStep.field .string)
    |>.andThen (SpendsStep.onlyIf (fun _ => SpendsStep.field .int8))
    |>.andThen (SpendsStep.structs ((AclDescription29.spends version {}).mono (by decide) (Nat.le_refl _))) : SpendsStep _ _) t).mono (by decide) (by decide)
theorem DescribeAclsResource29.spends0 (version : Int16) (t : DescribeAclsResource29) : Spends (DescribeAclsResource29.decodeW version t) 0 1 :=
  (DescribeAclsResource29.spends version t).mono (Nat.zero_le _) (Nat.le_refl _)

/-- message/messages.gen.go:7766-7794 `DescribeAclsResponse.Decode`, with the steps it takes -/
def DescribeAclsResponse.decodeW (version : Int16) : DescribeAclsResponse → ADec DescribeAclsResponse :=
    ADec.field WDec.int32 (fun t x => { t with ThrottleTimeMs := x }) ;>>
    ADec.field WDec.int16 (fun t x => { t with ErrorCode := x }) ;>>
    ADec.field WDec.string (fun t x => { t with ErrorMessage := x }) ;>>
    WDec.fieldStructs (DescribeAclsResource29.decodeW version {}) (·.Resources) (fun t x => { t with Resources := x })
theorem DescribeAclsResponse.erasesW (version : Int16) (t : DescribeAclsResponse) : Erases (DescribeAclsResponse.decodeW version t) (DescribeAclsResponse.decode version t) :=
  ((ErasesStep.field (.read _))
    |>.andThen (ErasesStep.field (.read _))
    |>.andThen (ErasesStep.field .stringW)
    |>.andThen (ErasesStep.structsW (DescribeAclsResource29.erasesW version {})) : ErasesStep _ _) t
theorem DescribeAclsResponse.spends (version : Int16) (t : DescribeAclsResponse) : Spends (DescribeAclsResponse.decodeW version t) 20 1 :=
  (((SpendsStep.field .int32)
    |>.andThen (SpendsStep.field .int16)
    |>.andThen (SpendsStep.field .string)
    |>.andThen (SpendsStep.structs ((DescribeAclsResource29.spends version {}).mono (by decide) (Nat.le_refl _))) : SpendsStep _ _) t).mono (by decide) (by decide)
theorem DescribeAclsResponse.spends0 (version : Int16) (t : DescribeAclsResponse) : Spends (DescribeAclsResponse.decodeW version t) 0 1 :=
  (DescribeAclsResponse.spends version t).mono (Nat.zero_le _) (Nat.le_refl _)

/-- The structures of the DescribeAcls messages. -/
def workDescribeAcls : List (Σ M : MsgType, Int16 → M.T → ADec M.T) :=
  [⟨DescribeAclsRequest.type, DescribeAclsRequest.decodeW⟩,
   ⟨DescribeAclsResponse.type, DescribeAclsResponse.decodeW⟩,
   ⟨DescribeAclsResource29.type, DescribeAclsResource29.decodeW⟩,
   ⟨AclDescription29.type, AclDescription29.decodeW⟩]
theorem workDescribeAcls_erases : ∀ p ∈ workDescribeAcls, ∀ v t, Erases (p.2 v t) (p.1.decode v t) := by
  unfold workDescribeAcls
  simp only [List.forall_mem_cons]
  exact ⟨DescribeAclsRequest.erasesW, DescribeAclsResponse.erasesW, DescribeAclsResource29.erasesW, AclDescription29.erasesW, fun _ h => absurd h (by simp)⟩
theorem workDescribeAcls_spends : ∀ p ∈ workDescribeAcls, ∀ v t, Spends (p.2 v t) 0 1 := by
  unfold workDescribeAcls
  simp only [List.forall_mem_cons]
  exact ⟨DescribeAclsRequest.spends0, DescribeAclsResponse.spends0, DescribeAclsResource29.spends0, AclDescription29.spends0, fun _ h => absurd h (by simp)⟩

end Kafka.Msg
