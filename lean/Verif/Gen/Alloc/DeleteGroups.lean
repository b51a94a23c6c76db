import Verif.Message.AllocLemmas
import Verif.Gen.Model.DeleteGroups
/-!
Generated by tools/gen_messages.py: memory asked for by decoding the DeleteGroups messages.
-/
namespace Kafka.Msg

/-- message/messages.gen.go:10499-10506 `DeleteGroupsRequest.Decode`, with the memory it asks for -/
def DeleteGroupsRequest.decodeA (_version : Int16) : DeleteGroupsRequest → ADec DeleteGroupsRequest :=
    ADec.field ADec.stringArray (fun t x => { t with GroupsNames := x })
theorem DeleteGroupsRequest.erases (version : Int16) (t : DeleteGroupsRequest) : Erases (DeleteGroupsRequest.decodeA version t) (DeleteGroupsRequest.decode version t) :=
  (ErasesStep.field (.arrayOf .string) : ErasesStep _ _) t
theorem DeleteGroupsRequest.within (version : Int16) (t : DeleteGroupsRequest) : Within (DeleteGroupsRequest.decodeA version t) 4 1 :=
  ((WithinStep.field .stringArray : WithinStep _ _ _) t).mono (by decide) (by decide)

/-- message/messages.gen.go:10579-10590 `DeletableGroupResult42.Decode`, with the memory it asks for -/
def DeletableGroupResult42.decodeA (_version : Int16) : DeletableGroupResult42 → ADec DeletableGroupResult42 :=
    ADec.field ADec.string (fun t x => { t with GroupId := x }) ;>>
    ADec.field ADec.int16 (fun t x => { t with ErrorCode := x })
theorem DeletableGroupResult42.erases (version : Int16) (t : DeletableGroupResult42) : Erases (DeletableGroupResult42.decodeA version t) (DeletableGroupResult42.decode version t) :=
  ((ErasesStep.field .string)
    |>.andThen (ErasesStep.field (.free _)) : ErasesStep _ _) t
theorem DeletableGroupResult42.within (version : Int16) (t : DeletableGroupResult42) : Within (DeletableGroupResult42.decodeA version t) 4 0 :=
  (((WithinStep.field .string)
    |>.andThen (WithinStep.field .int16) : WithinStep _ _ _) t).mono (by decide) (by decide)

/-- message/messages.gen.go:10537-10557 `DeleteGroupsResponse.Decode`, with the memory it asks for -/
def DeleteGroupsResponse.decodeA (version : Int16) : DeleteGroupsResponse → ADec DeleteGroupsResponse :=
    ADec.field ADec.int32 (fun t x => { t with ThrottleTimeMs := x }) ;>>
    ADec.fieldStructs (DeletableGroupResult42.decodeA version {}) (·.Results) (fun t x => { t with Results := x })
theorem DeleteGroupsResponse.erases (version : Int16) (t : DeleteGroupsResponse) : Erases (DeleteGroupsResponse.decodeA version t) (DeleteGroupsResponse.decode version t) :=
  ((ErasesStep.field (.free _))
    |>.andThen (ErasesStep.structs (DeletableGroupResult42.erases version {})) : ErasesStep _ _) t
theorem DeleteGroupsResponse.within (version : Int16) (t : DeleteGroupsResponse) : Within (DeleteGroupsResponse.decodeA version t) 8 1 :=
  (((WithinStep.field .int32)
    |>.andThen (WithinStep.structs ((DeletableGroupResult42.within version {}).mono (by decide) (Nat.le_refl _))) : WithinStep _ _ _) t).mono (by decide) (by decide)

end Kafka.Msg
