import Verif.Message.AllocLemmas
import Verif.Gen.Model.CreateAcls
/-!
Generated by tools/gen_messages.py: memory asked for by decoding the CreateAcls messages.
-/
namespace Kafka.Msg

/-- message/messages.gen.go:7996-8029 `CreatableAcl30.Decode`, with the memory it asks for -/
def CreatableAcl30.decodeA (version : Int16) : CreatableAcl30 → ADec CreatableAcl30 :=
    ADec.field ADec.int8 (fun t x => { t with ResourceType := x }) ;>>
    ADec.field ADec.string (fun t x => { t with ResourceName := x }) ;>>
    ADec.onlyIf (version ≥ 1) (ADec.field ADec.int8 (fun t x => { t with ResourcePatternType := x })) ;>>
    ADec.field ADec.string (fun t x => { t with Principal := x }) ;>>
    ADec.field ADec.string (fun t x => { t with Host := x }) ;>>
    ADec.field ADec.int8 (fun t x => { t with Operation := x }) ;>>
    ADec.field ADec.int8 (fun t x => { t with PermissionType := x })
theorem CreatableAcl30.erases (version : Int16) (t : CreatableAcl30) : Erases (CreatableAcl30.decodeA version t) (CreatableAcl30.decode version t) :=
  ((ErasesStep.field (.free _))
    |>.andThen (ErasesStep.field .string)
    |>.andThen (ErasesStep.onlyIf (ErasesStep.field (.free _)))
    |>.andThen (ErasesStep.field .string)
    |>.andThen (ErasesStep.field .string)
    |>.andThen (ErasesStep.field (.free _))
    |>.andThen (ErasesStep.field (.free _)) : ErasesStep _ _) t
theorem CreatableAcl30.within (version : Int16) (t : CreatableAcl30) : Within (CreatableAcl30.decodeA version t) 9 0 :=
  (((WithinStep.field .int8)
    |>.andThen (WithinStep.field .string)
    |>.andThen (WithinStep.onlyIf (fun _ => WithinStep.field .int8))
    |>.andThen (WithinStep.field .string)
    |>.andThen (WithinStep.field .string)
    |>.andThen (WithinStep.field .int8)
    |>.andThen (WithinStep.field .int8) : WithinStep _ _ _) t).mono (by decide) (by decide)

/-- message/messages.gen.go:7939-7955 `CreateAclsRequest.Decode`, with the memory it asks for -/
def CreateAclsRequest.decodeA (version : Int16) : CreateAclsRequest → ADec CreateAclsRequest :=
    ADec.fieldStructs (CreatableAcl30.decodeA version {}) (·.Creations) (fun t x => { t with Creations := x })
theorem CreateAclsRequest.erases (version : Int16) (t : CreateAclsRequest) : Erases (CreateAclsRequest.decodeA version t) (CreateAclsRequest.decode version t) :=
  (ErasesStep.structs (CreatableAcl30.erases version {}) : ErasesStep _ _) t
theorem CreateAclsRequest.within (version : Int16) (t : CreateAclsRequest) : Within (CreateAclsRequest.decodeA version t) 4 1 :=
  ((WithinStep.structs ((CreatableAcl30.within version {}).mono (by decide) (Nat.le_refl _)) : WithinStep _ _ _) t).mono (by decide) (by decide)

/-- message/messages.gen.go:8102-8113 `CreatableAclResult30.Decode`, with the memory it asks for -/
def CreatableAclResult30.decodeA (_version : Int16) : CreatableAclResult30 → ADec CreatableAclResult30 :=
    ADec.field ADec.int16 (fun t x => { t with ErrorCode := x }) ;>>
    ADec.field ADec.string (fun t x => { t with ErrorMessage := x })
theorem CreatableAclResult30.erases (version : Int16) (t : CreatableAclResult30) : Erases (CreatableAclResult30.decodeA version t) (CreatableAclResult30.decode version t) :=
  ((ErasesStep.field (.free _))
    |>.andThen (ErasesStep.field .string) : ErasesStep _ _) t
theorem CreatableAclResult30.within (version : Int16) (t : CreatableAclResult30) : Within (CreatableAclResult30.decodeA version t) 4 0 :=
  (((WithinStep.field .int16)
    |>.andThen (WithinStep.field .string) : WithinStep _ _ _) t).mono (by decide) (by decide)

/-- message/messages.gen.go:8060-8080 `CreateAclsResponse.Decode`, with the memory it asks for -/
def CreateAclsResponse.decodeA (version : Int16) : CreateAclsResponse → ADec CreateAclsResponse :=
    ADec.field ADec.int32 (fun t x => { t with ThrottleTimeMs := x }) ;>>
    ADec.fieldStructs (CreatableAclResult30.decodeA version {}) (·.Results) (fun t x => { t with Results := x })
theorem CreateAclsResponse.erases (version : Int16) (t : CreateAclsResponse) : Erases (CreateAclsResponse.decodeA version t) (CreateAclsResponse.decode version t) :=
  ((ErasesStep.field (.free _))
    |>.andThen (ErasesStep.structs (CreatableAclResult30.erases version {})) : ErasesStep _ _) t
theorem CreateAclsResponse.within (version : Int16) (t : CreateAclsResponse) : Within (CreateAclsResponse.decodeA version t) 8 1 :=
  (((WithinStep.field .int32)
    |>.andThen (WithinStep.structs ((CreatableAclResult30.within version {}).mono (by decide) (Nat.le_refl _))) : WithinStep _ _ _) t).mono (by decide) (by decide)

end Kafka.Msg
