import Verif.Message.AllocLemmas
import Verif.Gen.Model.DescribeAcls
/-!
Generated by tools/gen_messages.py: memory asked for by decoding the DescribeAcls messages.
-/
namespace Kafka.Msg

/-- message/messages.gen.go:7696-7729 `DescribeAclsRequest.Decode`, with the memory it asks for -/
def DescribeAclsRequest.decodeA (version : Int16) : DescribeAclsRequest → ADec DescribeAclsRequest :=
    ADec.field ADec.int8 (fun t x => { t with ResourceType := x }) ;>>
    ADec.field ADec.string (fun t x => { t with ResourceNameFilter := x }) ;>>
    ADec.onlyIf (version ≥ 1) (ADec.field ADec.int8 (fun t x => { t with ResourcePatternType := x })) ;>>
    ADec.field ADec.string (fun t x => { t with PrincipalFilter := x }) ;>>
    ADec.field ADec.string (fun t x => { t with HostFilter := x }) ;>>
    ADec.field ADec.int8 (fun t x => { t with Operation := x }) ;>>
    ADec.field ADec.int8 (fun t x => { t with PermissionType := x })
theorem DescribeAclsRequest.erases (version : Int16) (t : DescribeAclsRequest) : Erases (DescribeAclsRequest.decodeA version t) (DescribeAclsRequest.decode version t) :=
  ((ErasesStep.field (.free _))
    |>.andThen (ErasesStep.field .string)
    |>.andThen (ErasesStep.onlyIf (ErasesStep.field (.free _)))
    |>.andThen (ErasesStep.field .string)
    |>.andThen (ErasesStep.field .string)
    |>.andThen (ErasesStep.field (.free _))
    |>.andThen (ErasesStep.field (.free _)) : ErasesStep _ _) t
theorem DescribeAclsRequest.within (version : Int16) (t : DescribeAclsRequest) : Within (DescribeAclsRequest.decodeA version t) 9 0 :=
  (((WithinStep.field .int8)
    |>.andThen (WithinStep.field .string)
    |>.andThen (WithinStep.onlyIf (fun _ => WithinStep.field .int8))
    |>.andThen (WithinStep.field .string)
    |>.andThen (WithinStep.field .string)
    |>.andThen (WithinStep.field .int8)
    |>.andThen (WithinStep.field .int8) : WithinStep _ _ _) t).mono (by decide) (by decide)

/-- message/messages.gen.go:7892-7911 `AclDescription29.Decode`, with the memory it asks for -/
def AclDescription29.decodeA (_version : Int16) : AclDescription29 → ADec AclDescription29 :=
    ADec.field ADec.string (fun t x => { t with Principal := x }) ;>>
    ADec.field ADec.string (fun t x => { t with Host := x }) ;>>
    ADec.field ADec.int8 (fun t x => { t with Operation := x }) ;>>
    ADec.field ADec.int8 (fun t x => { t with PermissionType := x })
theorem AclDescription29.erases (version : Int16) (t : AclDescription29) : Erases (AclDescription29.decodeA version t) (AclDescription29.decode version t) :=
  ((ErasesStep.field .string)
    |>.andThen (ErasesStep.field .string)
    |>.andThen (ErasesStep.field (.free _))
    |>.andThen (ErasesStep.field (.free _)) : ErasesStep _ _) t
theorem AclDescription29.within (version : Int16) (t : AclDescription29) : Within (AclDescription29.decodeA version t) 6 0 :=
  (((WithinStep.field .string)
    |>.andThen (WithinStep.field .string)
    |>.andThen (WithinStep.field .int8)
    |>.andThen (WithinStep.field .int8) : WithinStep _ _ _) t).mono (by decide) (by decide)

/-- message/messages.gen.go:7834-7864 `DescribeAclsResource29.Decode`, with the memory it asks for -/
def DescribeAclsResource29.decodeA (version : Int16) : DescribeAclsResource29 → ADec DescribeAclsResource29 :=
    ADec.field ADec.int8 (fun t x => { t with «Type» := x }) ;>>
    ADec.field ADec.string (fun t x => { t with Name := x }) ;>>
    ADec.onlyIf (version ≥ 1) (ADec.field ADec.int8 (fun t x => { t with PatternType := x })) ;>>
    ADec.fieldStructs (AclDescription29.decodeA version {}) (·.Acls) (fun t x => { t with Acls := x })
theorem DescribeAclsResource29.erases (version : Int16) (t : DescribeAclsResource29) : Erases (DescribeAclsResource29.decodeA version t) (DescribeAclsResource29.decode version t) :=
  ((ErasesStep.field (.free _))
    |>.andThen (ErasesStep.field .string)
    |>.andThen (ErasesStep.onlyIf (ErasesStep.field (.free _)))
    |>.andThen (ErasesStep.structs (AclDescription29.erases version {})) : ErasesStep _ _) t
theorem DescribeAclsResource29.within (version : Int16) (t : DescribeAclsResource29) : Within (DescribeAclsResource29.decodeA version t) 7 1 :=
  (((WithinStep.field .int8)
    |>.andThen (WithinStep.field .string)
    |>.andThen (WithinStep.onlyIf (fun _ => WithinStep.field .int8))
    |>.andThen (WithinStep.structs ((AclDescription29.within version {}).mono (by decide) (Nat.le_refl _))) : WithinStep _ _ _) t).mono (by decide) (by decide)

/-- message/messages.gen.go:7766-7794 `DescribeAclsResponse.Decode`, with the memory it asks for -/
def DescribeAclsResponse.decodeA (version : Int16) : DescribeAclsResponse → ADec DescribeAclsResponse :=
    ADec.field ADec.int32 (fun t x => { t with ThrottleTimeMs := x }) ;>>
    ADec.field ADec.int16 (fun t x => { t with ErrorCode := x }) ;>>
    ADec.field ADec.string (fun t x => { t with ErrorMessage := x }) ;>>
    ADec.fieldStructs (DescribeAclsResource29.decodeA version {}) (·.Resources) (fun t x => { t with Resources := x })
theorem DescribeAclsResponse.erases (version : Int16) (t : DescribeAclsResponse) : Erases (DescribeAclsResponse.decodeA version t) (DescribeAclsResponse.decode version t) :=
  ((ErasesStep.field (.free _))
    |>.andThen (ErasesStep.field (.free _))
    |>.andThen (ErasesStep.field .string)
    |>.andThen (ErasesStep.structs (DescribeAclsResource29.erases version {})) : ErasesStep _ _) t
theorem DescribeAclsResponse.within (version : Int16) (t : DescribeAclsResponse) : Within (DescribeAclsResponse.decodeA version t) 12 2 :=
  (((WithinStep.field .int32)
    |>.andThen (WithinStep.field .int16)
    |>.andThen (WithinStep.field .string)
    |>.andThen (WithinStep.structs ((DescribeAclsResource29.within version {}).mono (by decide) (Nat.le_refl _))) : WithinStep _ _ _) t).mono (by decide) (by decide)

end Kafka.Msg
