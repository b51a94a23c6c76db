import Verif.Message.AllocLemmas
import Verif.Gen.Model.ListGroups
/-!
Generated by tools/gen_messages.py: memory asked for by decoding the ListGroups messages.
-/
namespace Kafka.Msg

/-- message/messages.gen.go:5045-5048 `ListGroupsRequest.Decode`, with the memory it asks for -/
def ListGroupsRequest.decodeA (_version : Int16) : ListGroupsRequest → ADec ListGroupsRequest :=
    ADec.nop
theorem ListGroupsRequest.erases (version : Int16) (t : ListGroupsRequest) : Erases (ListGroupsRequest.decodeA version t) (ListGroupsRequest.decode version t) :=
  (ErasesStep.nop : ErasesStep _ _) t
theorem ListGroupsRequest.within (version : Int16) (t : ListGroupsRequest) : Within (ListGroupsRequest.decodeA version t) 0 0 :=
  ((WithinStep.nop : WithinStep _ _ _) t).mono (by decide) (by decide)

/-- message/messages.gen.go:5134-5145 `ListedGroup16.Decode`, with the memory it asks for -/
def ListedGroup16.decodeA (_version : Int16) : ListedGroup16 → ADec ListedGroup16 :=
    ADec.field ADec.string (fun t x => { t with GroupId := x }) ;>>
    ADec.field ADec.string (fun t x => { t with ProtocolType := x })
theorem ListedGroup16.erases (version : Int16) (t : ListedGroup16) : Erases (ListedGroup16.decodeA version t) (ListedGroup16.decode version t) :=
  ((ErasesStep.field .string)
    |>.andThen (ErasesStep.field .string) : ErasesStep _ _) t
theorem ListedGroup16.within (version : Int16) (t : ListedGroup16) : Within (ListedGroup16.decodeA version t) 4 0 :=
  (((WithinStep.field .string)
    |>.andThen (WithinStep.field .string) : WithinStep _ _ _) t).mono (by decide) (by decide)

/-- message/messages.gen.go:5086-5112 `ListGroupsResponse.Decode`, with the memory it asks for -/
def ListGroupsResponse.decodeA (version : Int16) : ListGroupsResponse → ADec ListGroupsResponse :=
    ADec.onlyIf (version ≥ 1) (ADec.field ADec.int32 (fun t x => { t with ThrottleTimeMs := x })) ;>>
    ADec.field ADec.int16 (fun t x => { t with ErrorCode := x }) ;>>
    ADec.fieldStructs (ListedGroup16.decodeA version {}) (·.Groups) (fun t x => { t with Groups := x })
theorem ListGroupsResponse.erases (version : Int16) (t : ListGroupsResponse) : Erases (ListGroupsResponse.decodeA version t) (ListGroupsResponse.decode version t) :=
  ((ErasesStep.onlyIf (ErasesStep.field (.free _)))
    |>.andThen (ErasesStep.field (.free _))
    |>.andThen (ErasesStep.structs (ListedGroup16.erases version {})) : ErasesStep _ _) t
theorem ListGroupsResponse.within (version : Int16) (t : ListGroupsResponse) : Within (ListGroupsResponse.decodeA version t) 6 1 :=
  (((WithinStep.onlyIf (fun _ => WithinStep.field .int32))
    |>.andThen (WithinStep.field .int16)
    |>.andThen (WithinStep.structs ((ListedGroup16.within version {}).mono (by decide) (Nat.le_refl _))) : WithinStep _ _ _) t).mono (by decide) (by decide)

end Kafka.Msg
