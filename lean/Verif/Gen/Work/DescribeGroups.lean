import Verif.Message.Work
import Verif.Gen.Model.DescribeGroups
/-!
Generated by tools/gen_messages.py: steps taken by decoding the DescribeGroups messages.
-/
namespace Kafka.Msg

/-- message/messages.gen.go:4800-4813 `DescribeGroupsRequest.Decode`, with the steps it takes -/
def DescribeGroupsRequest.decodeW (version : Int16) : DescribeGroupsRequest → ADec DescribeGroupsRequest :=
    ADec.field WDec.stringArray (fun t x => { t with Groups := x }) ;>>
    ADec.onlyIf (version ≥ 3) (ADec.field WDec.bool (fun t x => { t with IncludeAuthorizedOperations := x }))
theorem DescribeGroupsRequest.erasesW (version : Int16) (t : DescribeGroupsRequest) : Erases (DescribeGroupsRequest.decodeW version t) (DescribeGroupsRequest.decode version t) :=
  ((ErasesStep.field (.arrayOfW .stringW))
    |>.andThen (ErasesStep.onlyIf (ErasesStep.field (.read _))) : ErasesStep _ _) t
theorem DescribeGroupsRequest.spends (version : Int16) (t : DescribeGroupsRequest) : Spends (DescribeGroupsRequest.decodeW version t) 7 1 :=
  (((SpendsStep.field .stringArray)
    |>.andThen (SpendsStep.onlyIf (fun _ => SpendsStep.field .bool)) : SpendsStep _ _) t).mono (by decide) (by decide)
theorem DescribeGroupsRequest.spends0 (version : Int16) (t : DescribeGroupsRequest) : Spends (DescribeGroupsRequest.decodeW version t) 0 1 :=
  (DescribeGroupsRequest.spends version t).mono (Nat.zero_le _) (Nat.le_refl _)

/-- message/messages.gen.go:4999-5028 `DescribedGroupMember15.Decode`, with the steps it takes -/
def DescribedGroupMember15.decodeW (version : Int16) : DescribedGroupMember15 → ADec DescribedGroupMember15 :=
    ADec.field WDec.string (fun t x => { t with MemberId := x }) ;>>
    ADec.onlyIf (version ≥ 4) (ADec.field WDec.string (fun t x => { t with GroupInstanceId := x })) ;>>
    ADec.field WDec.string (fun t x => { t with ClientId := x }) ;>>
    ADec.field WDec.string (fun t x => { t with ClientHost := x }) ;>>
    ADec.field WDec.bytes (fun t x => { t with MemberMetadata := x }) ;>>
    ADec.field WDec.bytes (fun t x => { t with MemberAssignment := x })
theorem DescribedGroupMember15.erasesW (version : Int16) (t : DescribedGroupMember15) : Erases (DescribedGroupMember15.decodeW version t) (DescribedGroupMember15.decode version t) :=
  ((ErasesStep.field .stringW)
    |>.andThen (ErasesStep.onlyIf (ErasesStep.field .stringW))
    |>.andThen (ErasesStep.field .stringW)
    |>.andThen (ErasesStep.field .stringW)
    |>.andThen (ErasesStep.field (.read _))
    |>.andThen (ErasesStep.field (.read _)) : ErasesStep _ _) t
theorem DescribedGroupMember15.spends (version : Int16) (t : DescribedGroupMember15) : Spends (DescribedGroupMember15.decodeW version t) 23 1 :=
  (((SpendsStep.field .string)
    |>.andThen (SpendsStep.onlyIf (fun _ => SpendsStep.field .string))
    |>.andThen (SpendsStep.field .string)
    |>.andThen (SpendsStep.field .string)
    |>.andThen (SpendsStep.field .bytes)
    |>.andThen (SpendsStep.field .bytes) : SpendsStep _ _) t).mono (by decide) (by decide)
theorem DescribedGroupMember15.spends0 (version : Int16) (t : DescribedGroupMember15) : Spends (DescribedGroupMember15.decodeW version t) 0 1 :=
  (DescribedGroupMember15.spends version t).mono (Nat.zero_le _) (Nat.le_refl _)

/-- message/messages.gen.go:4919-4961 `DescribedGroup15.Decode`, with the steps it takes -/
def DescribedGroup15.decodeW (version : Int16) : DescribedGroup15 → ADec DescribedGroup15 :=
    ADec.field WDec.int16 (fun t x => { t with ErrorCode := x }) ;>>
    ADec.field WDec.string (fun t x => { t with GroupId := x }) ;>>
    ADec.field WDec.string (fun t x => { t with GroupState := x }) ;>>
    ADec.field WDec.string (fun t x => { t with ProtocolType := x }) ;>>
    ADec.field WDec.string (fun t x => { t with ProtocolData := x }) ;>>
    WDec.fieldStructs (DescribedGroupMember15.decodeW version {}) (·.Members) (fun t x => { t with Members := x }) ;>>
    ADec.onlyIf (version ≥ 3) (ADec.field WDec.int32 (fun t x => { t with AuthorizedOperations := x }))
theorem DescribedGroup15.erasesW (version : Int16) (t : DescribedGroup15) : Erases (DescribedGroup15.decodeW version t) (DescribedGroup15.decode version t) :=
  ((ErasesStep.field (.read _))
    |>.andThen (ErasesStep.field .stringW)
    |>.andThen (ErasesStep.field .stringW)
    |>.andThen (ErasesStep.field .stringW)
    |>.andThen (ErasesStep.field .stringW)
    |>.andThen (ErasesStep.structsW (DescribedGroupMember15.erasesW version {}))
    |>.andThen (ErasesStep.onlyIf (ErasesStep.field (.read _))) : ErasesStep _ _) t
theorem DescribedGroup15.spends (version : Int16) (t : DescribedGroup15) : Spends (DescribedGroup15.decodeW version t) 22 1 :=
  (((SpendsStep.field .int16)
    |>.andThen (SpendsStep.field .string)
    |>.andThen (SpendsStep.field .string)
    |>.andThen (SpendsStep.field .string)
    |>.andThen (SpendsStep.field .string)
    |>.andThen (SpendsStep.structs ((DescribedGroupMember15.spends version {}).mono (by decide) (Nat.le_refl _)))
    |>.andThen (SpendsStep.onlyIf (fun _ => SpendsStep.field .int32)) : SpendsStep _ _) t).mono (by decide) (by decide)
theorem DescribedGroup15.spends0 (version : Int16) (t : DescribedGroup15) : Spends (DescribedGroup15.decodeW version t) 0 1 :=
  (DescribedGroup15.spends version t).mono (Nat.zero_le _) (Nat.le_refl _)

/-- message/messages.gen.go:4848-4870 `DescribeGroupsResponse.Decode`, with the steps it takes -/
def DescribeGroupsResponse.decodeW (version : Int16) : DescribeGroupsResponse → ADec DescribeGroupsResponse :=
    ADec.onlyIf (version ≥ 1) (ADec.field WDec.int32 (fun t x => { t with ThrottleTimeMs := x })) ;>>
    WDec.fieldStructs (DescribedGroup15.decodeW version {}) (·.Groups) (fun t x => { t with Groups := x })
theorem DescribeGroupsResponse.erasesW (version : Int16) (t : DescribeGroupsResponse) : Erases (DescribeGroupsResponse.decodeW version t) (DescribeGroupsResponse.decode version t) :=
  ((ErasesStep.onlyIf (ErasesStep.field (.read _)))
    |>.andThen (ErasesStep.structsW (DescribedGroup15.erasesW version {})) : ErasesStep _ _) t
theorem DescribeGroupsResponse.spends (version : Int16) (t : DescribeGroupsResponse) : Spends (DescribeGroupsResponse.decodeW version t) 7 1 :=
  (((SpendsStep.onlyIf (fun _ => SpendsStep.field .int32))
    |>.andThen (SpendsStep.structs ((DescribedGroup15.spends version {}).mono (by decide) (Nat.le_refl _))) : SpendsStep _ _) t).mono (by decide) (by decide)
theorem DescribeGroupsResponse.spends0 (version : Int16) (t : DescribeGroupsResponse) : Spends (DescribeGroupsResponse.decodeW version t) 0 1 :=
  (DescribeGroupsResponse.spends version t).mono (Nat.zero_le _) (Nat.le_refl _)

/-- The structures of the DescribeGroups messages. -/
def workDescribeGroups : List (Σ M : MsgType, Int16 → M.T → ADec M.T) :=
  [⟨DescribeGroupsRequest.type, DescribeGroupsRequest.decodeW⟩,
   ⟨DescribeGroupsResponse.type, DescribeGroupsResponse.decodeW⟩,
   ⟨DescribedGroup15.type, DescribedGroup15.decodeW⟩,
   ⟨DescribedGroupMember15.type, DescribedGroupMember15.decodeW⟩]
theorem workDescribeGroups_erases : ∀ p ∈ workDescribeGroups, ∀ v t, Erases (p.2 v t) (p.1.decode v t) := by
  unfold workDescribeGroups
  simp only [List.forall_mem_cons]
  exact ⟨DescribeGroupsRequest.erasesW, DescribeGroupsResponse.erasesW, DescribedGroup15.erasesW, DescribedGroupMember15.erasesW, fun _ h => absurd h (by simp)⟩
theorem workDescribeGroups_spends : ∀ p ∈ workDescribeGroups, ∀ v t, Spends (p.2 v t) 0 1 := by
  unfold workDescribeGroups
  simp only [List.forall_mem_cons]
  exact ⟨DescribeGroupsRequest.spends0, DescribeGroupsResponse.spends0, DescribedGroup15.spends0, DescribedGroupMember15.spends0, fun _ h => absurd h (by simp)⟩

end Kafka.Msg
