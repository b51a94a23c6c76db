import Verif.Message.AllocLemmas
import Verif.Gen.Model.DescribeGroups
/-!
Generated by tools/gen_messages.py: memory asked for by decoding the DescribeGroups messages.
-/
namespace Kafka.Msg

/-- message/messages.gen.go:4800-4813 `DescribeGroupsRequest.Decode`, with the memory it asks for -/
def DescribeGroupsRequest.decodeA (version : Int16) : DescribeGroupsRequest → ADec DescribeGroupsRequest :=
    ADec.field ADec.stringArray (fun t x => { t with Groups := x }) ;>>
    ADec.onlyIf (version ≥ 3) (ADec.field ADec.bool (fun t x => { t with IncludeAuthorizedOperations := x }))
theorem DescribeGroupsRequest.erases (version : Int16) (t : DescribeGroupsRequest) : Erases (DescribeGroupsRequest.decodeA version t) (DescribeGroupsRequest.decode version t) :=
  ((ErasesStep.field (.arrayOf .string))
    |>.andThen (ErasesStep.onlyIf (ErasesStep.field (.free _))) : ErasesStep _ _) t
theorem DescribeGroupsRequest.within (version : Int16) (t : DescribeGroupsRequest) : Within (DescribeGroupsRequest.decodeA version t) 4 1 :=
  (((WithinStep.field .stringArray)
    |>.andThen (WithinStep.onlyIf (fun _ => WithinStep.field .bool)) : WithinStep _ _ _) t).mono (by decide) (by decide)

/-- message/messages.gen.go:4999-5028 `DescribedGroupMember15.Decode`, with the memory it asks for -/
def DescribedGroupMember15.decodeA (version : Int16) : DescribedGroupMember15 → ADec DescribedGroupMember15 :=
    ADec.field ADec.string (fun t x => { t with MemberId := x }) ;>>
    ADec.onlyIf (version ≥ 4) (ADec.field ADec.string (fun t x => { t with GroupInstanceId := x })) ;>>
    ADec.field ADec.string (fun t x => { t with ClientId := x }) ;>>
    ADec.field ADec.string (fun t x => { t with ClientHost := x }) ;>>
    ADec.field ADec.bytes (fun t x => { t with MemberMetadata := x }) ;>>
    ADec.field ADec.bytes (fun t x => { t with MemberAssignment := x })
theorem DescribedGroupMember15.erases (version : Int16) (t : DescribedGroupMember15) : Erases (DescribedGroupMember15.decodeA version t) (DescribedGroupMember15.decode version t) :=
  ((ErasesStep.field .string)
    |>.andThen (ErasesStep.onlyIf (ErasesStep.field .string))
    |>.andThen (ErasesStep.field .string)
    |>.andThen (ErasesStep.field .string)
    |>.andThen (ErasesStep.field (.free _))
    |>.andThen (ErasesStep.field (.free _)) : ErasesStep _ _) t
theorem DescribedGroupMember15.within (version : Int16) (t : DescribedGroupMember15) : Within (DescribedGroupMember15.decodeA version t) 14 0 :=
  (((WithinStep.field .string)
    |>.andThen (WithinStep.onlyIf (fun _ => WithinStep.field .string))
    |>.andThen (WithinStep.field .string)
    |>.andThen (WithinStep.field .string)
    |>.andThen (WithinStep.field .bytes)
    |>.andThen (WithinStep.field .bytes) : WithinStep _ _ _) t).mono (by decide) (by decide)

/-- message/messages.gen.go:4919-4961 `DescribedGroup15.Decode`, with the memory it asks for -/
def DescribedGroup15.decodeA (version : Int16) : DescribedGroup15 → ADec DescribedGroup15 :=
    ADec.field ADec.int16 (fun t x => { t with ErrorCode := x }) ;>>
    ADec.field ADec.string (fun t x => { t with GroupId := x }) ;>>
    ADec.field ADec.string (fun t x => { t with GroupState := x }) ;>>
    ADec.field ADec.string (fun t x => { t with ProtocolType := x }) ;>>
    ADec.field ADec.string (fun t x => { t with ProtocolData := x }) ;>>
    ADec.fieldStructs (DescribedGroupMember15.decodeA version {}) (·.Members) (fun t x => { t with Members := x }) ;>>
    ADec.onlyIf (version ≥ 3) (ADec.field ADec.int32 (fun t x => { t with AuthorizedOperations := x }))
theorem DescribedGroup15.erases (version : Int16) (t : DescribedGroup15) : Erases (DescribedGroup15.decodeA version t) (DescribedGroup15.decode version t) :=
  ((ErasesStep.field (.free _))
    |>.andThen (ErasesStep.field .string)
    |>.andThen (ErasesStep.field .string)
    |>.andThen (ErasesStep.field .string)
    |>.andThen (ErasesStep.field .string)
    |>.andThen (ErasesStep.structs (DescribedGroupMember15.erases version {}))
    |>.andThen (ErasesStep.onlyIf (ErasesStep.field (.free _))) : ErasesStep _ _) t
theorem DescribedGroup15.within (version : Int16) (t : DescribedGroup15) : Within (DescribedGroup15.decodeA version t) 14 1 :=
  (((WithinStep.field .int16)
    |>.andThen (WithinStep.field .string)
    |>.andThen (WithinStep.field .string)
    |>.andThen (WithinStep.field .string)
    |>.andThen (WithinStep.field .string)
    |>.andThen (WithinStep.structs ((DescribedGroupMember15.within version {}).mono (by decide) (Nat.le_refl _)))
    |>.andThen (WithinStep.onlyIf (fun _ => WithinStep.field .int32)) : WithinStep _ _ _) t).mono (by decide) (by decide)

/-- message/messages.gen.go:4848-4870 `DescribeGroupsResponse.Decode`, with the memory it asks for -/
def DescribeGroupsResponse.decodeA (version : Int16) : DescribeGroupsResponse → ADec DescribeGroupsResponse :=
    ADec.onlyIf (version ≥ 1) (ADec.field ADec.int32 (fun t x => { t with ThrottleTimeMs := x })) ;>>
    ADec.fieldStructs (DescribedGroup15.decodeA version {}) (·.Groups) (fun t x => { t with Groups := x })
theorem DescribeGroupsResponse.erases (version : Int16) (t : DescribeGroupsResponse) : Erases (DescribeGroupsResponse.decodeA version t) (DescribeGroupsResponse.decode version t) :=
  ((ErasesStep.onlyIf (ErasesStep.field (.free _)))
    |>.andThen (ErasesStep.structs (DescribedGroup15.erases version {})) : ErasesStep _ _) t
theorem DescribeGroupsResponse.within (version : Int16) (t : DescribeGroupsResponse) : Within (DescribeGroupsResponse.decodeA version t) 4 2 :=
  (((WithinStep.onlyIf (fun _ => WithinStep.field .int32))
    |>.andThen (WithinStep.structs ((DescribedGroup15.within version {}).mono (by decide) (Nat.le_refl _))) : WithinStep _ _ _) t).mono (by decide) (by decide)

end Kafka.Msg
