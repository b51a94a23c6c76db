import Verif.Message.AllocLemmas
import Verif.Gen.Model.DeleteAcls
/-!
Generated by tools/gen_messages.py: memory asked for by decoding the DeleteAcls messages.
-/
namespace Kafka.Msg

/-- message/messages.gen.go:8198-8231 `DeleteAclsFilter31.Decode`, with the memory it asks for -/
def DeleteAclsFilter31.decodeA (version : Int16) : DeleteAclsFilter31 → ADec DeleteAclsFilter31 :=
    ADec.field ADec.int8 (fun t x => { t with ResourceTypeFilter := x }) ;>>
    ADec.field ADec.string (fun t x => { t with ResourceNameFilter := x }) ;>>
    ADec.onlyIf (version ≥ 1) (ADec.field ADec.int8 (fun t x => { t with PatternTypeFilter := x })) ;>>
    ADec.field ADec.string (fun t x => { t with PrincipalFilter := x }) ;>>
    ADec.field ADec.string (fun t x => { t with HostFilter := x }) ;>>
    ADec.field ADec.int8 (fun t x => { t with Operation := x }) ;>>
    ADec.field ADec.int8 (fun t x => { t with PermissionType := x })
theorem DeleteAclsFilter31.erases (version : Int16) (t : DeleteAclsFilter31) : Erases (DeleteAclsFilter31.decodeA version t) (DeleteAclsFilter31.decode version t) :=
  ((ErasesStep.field (.free _))
    |>.andThen (ErasesStep.field .string)
    |>.andThen (ErasesStep.onlyIf (ErasesStep.field (.free _)))
    |>.andThen (ErasesStep.field .string)
    |>.andThen (ErasesStep.field .string)
    |>.andThen (ErasesStep.field (.free _))
    |>.andThen (ErasesStep.field (.free _)) : ErasesStep _ _) t
theorem DeleteAclsFilter31.within (version : Int16) (t : DeleteAclsFilter31) : Within (DeleteAclsFilter31.decodeA version t) 9 0 :=
  (((WithinStep.field .int8)
    |>.andThen (WithinStep.field .string)
    |>.andThen (WithinStep.onlyIf (fun _ => WithinStep.field .int8))
    |>.andThen (WithinStep.field .string)
    |>.andThen (WithinStep.field .string)
    |>.andThen (WithinStep.field .int8)
    |>.andThen (WithinStep.field .int8) : WithinStep _ _ _) t).mono (by decide) (by decide)

/-- message/messages.gen.go:8141-8157 `DeleteAclsRequest.Decode`, with the memory it asks for -/
def DeleteAclsRequest.decodeA (version : Int16) : DeleteAclsRequest → ADec DeleteAclsRequest :=
    ADec.fieldStructs (DeleteAclsFilter31.decodeA version {}) (·.Filters) (fun t x => { t with Filters := x })
theorem DeleteAclsRequest.erases (version : Int16) (t : DeleteAclsRequest) : Erases (DeleteAclsRequest.decodeA version t) (DeleteAclsRequest.decode version t) :=
  (ErasesStep.structs (DeleteAclsFilter31.erases version {}) : ErasesStep _ _) t
theorem DeleteAclsRequest.within (version : Int16) (t : DeleteAclsRequest) : Within (DeleteAclsRequest.decodeA version t) 4 1 :=
  ((WithinStep.structs ((DeleteAclsFilter31.within version {}).mono (by decide) (Nat.le_refl _)) : WithinStep _ _ _) t).mono (by decide) (by decide)

/-- message/messages.gen.go:8386-8427 `DeleteAclsMatchingAcl31.Decode`, with the memory it asks for -/
def DeleteAclsMatchingAcl31.decodeA (version : Int16) : DeleteAclsMatchingAcl31 → ADec DeleteAclsMatchingAcl31 :=
    ADec.field ADec.int16 (fun t x => { t with ErrorCode := x }) ;>>
    ADec.field ADec.string (fun t x => { t with ErrorMessage := x }) ;>>
    ADec.field ADec.int8 (fun t x => { t with ResourceType := x }) ;>>
    ADec.field ADec.string (fun t x => { t with ResourceName := x }) ;>>
    ADec.onlyIf (version ≥ 1) (ADec.field ADec.int8 (fun t x => { t with PatternType := x })) ;>>
    ADec.field ADec.string (fun t x => { t with Principal := x }) ;>>
    ADec.field ADec.string (fun t x => { t with Host := x }) ;>>
    ADec.field ADec.int8 (fun t x => { t with Operation := x }) ;>>
    ADec.field ADec.int8 (fun t x => { t with PermissionType := x })
theorem DeleteAclsMatchingAcl31.erases (version : Int16) (t : DeleteAclsMatchingAcl31) : Erases (DeleteAclsMatchingAcl31.decodeA version t) (DeleteAclsMatchingAcl31.decode version t) :=
  ((ErasesStep.field (.free _))
    |>.andThen (ErasesStep.field .string)
    |>.andThen (ErasesStep.field (.free _))
    |>.andThen (ErasesStep.field .string)
    |>.andThen (ErasesStep.onlyIf (ErasesStep.field (.free _)))
    |>.andThen (ErasesStep.field .string)
    |>.andThen (ErasesStep.field .string)
    |>.andThen (ErasesStep.field (.free _))
    |>.andThen (ErasesStep.field (.free _)) : ErasesStep _ _) t
theorem DeleteAclsMatchingAcl31.within (version : Int16) (t : DeleteAclsMatchingAcl31) : Within (DeleteAclsMatchingAcl31.decodeA version t) 13 0 :=
  (((WithinStep.field .int16)
    |>.andThen (WithinStep.field .string)
    |>.andThen (WithinStep.field .int8)
    |>.andThen (WithinStep.field .string)
    |>.andThen (WithinStep.onlyIf (fun _ => WithinStep.field .int8))
    |>.andThen (WithinStep.field .string)
    |>.andThen (WithinStep.field .string)
    |>.andThen (WithinStep.field .int8)
    |>.andThen (WithinStep.field .int8) : WithinStep _ _ _) t).mono (by decide) (by decide)

/-- message/messages.gen.go:8315-8339 `DeleteAclsFilterResult31.Decode`, with the memory it asks for -/
def DeleteAclsFilterResult31.decodeA (version : Int16) : DeleteAclsFilterResult31 → ADec DeleteAclsFilterResult31 :=
    ADec.field ADec.int16 (fun t x => { t with ErrorCode := x }) ;>>
    ADec.field ADec.string (fun t x => { t with ErrorMessage := x }) ;>>
    ADec.fieldStructs (DeleteAclsMatchingAcl31.decodeA version {}) (·.MatchingAcls) (fun t x => { t with MatchingAcls := x })
theorem DeleteAclsFilterResult31.erases (version : Int16) (t : DeleteAclsFilterResult31) : Erases (DeleteAclsFilterResult31.decodeA version t) (DeleteAclsFilterResult31.decode version t) :=
  ((ErasesStep.field (.free _))
    |>.andThen (ErasesStep.field .string)
    |>.andThen (ErasesStep.structs (DeleteAclsMatchingAcl31.erases version {})) : ErasesStep _ _) t
theorem DeleteAclsFilterResult31.within (version : Int16) (t : DeleteAclsFilterResult31) : Within (DeleteAclsFilterResult31.decodeA version t) 8 1 :=
  (((WithinStep.field .int16)
    |>.andThen (WithinStep.field .string)
    |>.andThen (WithinStep.structs ((DeleteAclsMatchingAcl31.within version {}).mono (by decide) (Nat.le_refl _))) : WithinStep _ _ _) t).mono (by decide) (by decide)

/-- message/messages.gen.go:8262-8282 `DeleteAclsResponse.Decode`, with the memory it asks for -/
def DeleteAclsResponse.decodeA (version : Int16) : DeleteAclsResponse → ADec DeleteAclsResponse :=
    ADec.field ADec.int32 (fun t x => { t with ThrottleTimeMs := x }) ;>>
    ADec.fieldStructs (DeleteAclsFilterResult31.decodeA version {}) (·.FilterResults) (fun t x => { t with FilterResults := x })
theorem DeleteAclsResponse.erases (version : Int16) (t : DeleteAclsResponse) : Erases (DeleteAclsResponse.decodeA version t) (DeleteAclsResponse.decode version t) :=
  ((ErasesStep.field (.free _))
    |>.andThen (ErasesStep.structs (DeleteAclsFilterResult31.erases version {})) : ErasesStep _ _) t
theorem DeleteAclsResponse.within (version : Int16) (t : DeleteAclsResponse) : Within (DeleteAclsResponse.decodeA version t) 8 2 :=
  (((WithinStep.field .int32)
    |>.andThen (WithinStep.structs ((DeleteAclsFilterResult31.within version {}).mono (by decide) (Nat.le_refl _))) : WithinStep _ _ _) t).mono (by decide) (by decide)

end Kafka.Msg
