import Verif.Message.AllocLemmas
import Verif.Gen.Model.IncrementalAlterConfigs
/-!
Generated by tools/gen_messages.py: memory asked for by decoding the IncrementalAlterConfigs messages.
-/
namespace Kafka.Msg

/-- message/messages.gen.go:10974-10989 `AlterableConfig44.Decode`, with the memory it asks for -/
def AlterableConfig44.decodeA (_version : Int16) : AlterableConfig44 → ADec AlterableConfig44 :=
    ADec.field ADec.string (fun t x => { t with Name := x }) ;>>
    ADec.field ADec.int8 (fun t x => { t with ConfigOperation := x }) ;>>
    ADec.field ADec.string (fun t x => { t with Value := x })
theorem AlterableConfig44.erases (version : Int16) (t : AlterableConfig44) : Erases (AlterableConfig44.decodeA version t) (AlterableConfig44.decode version t) :=
  ((ErasesStep.field .string)
    |>.andThen (ErasesStep.field (.free _))
    |>.andThen (ErasesStep.field .string) : ErasesStep _ _) t
theorem AlterableConfig44.within (version : Int16) (t : AlterableConfig44) : Within (AlterableConfig44.decodeA version t) 5 0 :=
  (((WithinStep.field .string)
    |>.andThen (WithinStep.field .int8)
    |>.andThen (WithinStep.field .string) : WithinStep _ _ _) t).mono (by decide) (by decide)

/-- message/messages.gen.go:10925-10949 `AlterConfigsResource44.Decode`, with the memory it asks for -/
def AlterConfigsResource44.decodeA (version : Int16) : AlterConfigsResource44 → ADec AlterConfigsResource44 :=
    ADec.field ADec.int8 (fun t x => { t with ResourceType := x }) ;>>
    ADec.field ADec.string (fun t x => { t with ResourceName := x }) ;>>
    ADec.fieldStructs (AlterableConfig44.decodeA version {}) (·.Configs) (fun t x => { t with Configs := x })
theorem AlterConfigsResource44.erases (version : Int16) (t : AlterConfigsResource44) : Erases (AlterConfigsResource44.decodeA version t) (AlterConfigsResource44.decode version t) :=
  ((ErasesStep.field (.free _))
    |>.andThen (ErasesStep.field .string)
    |>.andThen (ErasesStep.structs (AlterableConfig44.erases version {})) : ErasesStep _ _) t
theorem AlterConfigsResource44.within (version : Int16) (t : AlterConfigsResource44) : Within (AlterConfigsResource44.decodeA version t) 7 1 :=
  (((WithinStep.field .int8)
    |>.andThen (WithinStep.field .string)
    |>.andThen (WithinStep.structs ((AlterableConfig44.within version {}).mono (by decide) (Nat.le_refl _))) : WithinStep _ _ _) t).mono (by decide) (by decide)

/-- message/messages.gen.go:10872-10892 `IncrementalAlterConfigsRequest.Decode`, with the memory it asks for -/
def IncrementalAlterConfigsRequest.decodeA (version : Int16) : IncrementalAlterConfigsRequest → ADec IncrementalAlterConfigsRequest :=
    ADec.fieldStructs (AlterConfigsResource44.decodeA version {}) (·.Resources) (fun t x => { t with Resources := x }) ;>>
    ADec.field ADec.bool (fun t x => { t with ValidateOnly := x })
theorem IncrementalAlterConfigsRequest.erases (version : Int16) (t : IncrementalAlterConfigsRequest) : Erases (IncrementalAlterConfigsRequest.decodeA version t) (IncrementalAlterConfigsRequest.decode version t) :=
  ((ErasesStep.structs (AlterConfigsResource44.erases version {}))
    |>.andThen (ErasesStep.field (.free _)) : ErasesStep _ _) t
theorem IncrementalAlterConfigsRequest.within (version : Int16) (t : IncrementalAlterConfigsRequest) : Within (IncrementalAlterConfigsRequest.decodeA version t) 5 2 :=
  (((WithinStep.structs ((AlterConfigsResource44.within version {}).mono (by decide) (Nat.le_refl _)))
    |>.andThen (WithinStep.field .bool) : WithinStep _ _ _) t).mono (by decide) (by decide)

/-- message/messages.gen.go:11068-11087 `AlterConfigsResourceResponse44.Decode`, with the memory it asks for -/
def AlterConfigsResourceResponse44.decodeA (_version : Int16) : AlterConfigsResourceResponse44 → ADec AlterConfigsResourceResponse44 :=
    ADec.field ADec.int16 (fun t x => { t with ErrorCode := x }) ;>>
    ADec.field ADec.string (fun t x => { t with ErrorMessage := x }) ;>>
    ADec.field ADec.int8 (fun t x => { t with ResourceType := x }) ;>>
    ADec.field ADec.string (fun t x => { t with ResourceName := x })
theorem AlterConfigsResourceResponse44.erases (version : Int16) (t : AlterConfigsResourceResponse44) : Erases (AlterConfigsResourceResponse44.decodeA version t) (AlterConfigsResourceResponse44.decode version t) :=
  ((ErasesStep.field (.free _))
    |>.andThen (ErasesStep.field .string)
    |>.andThen (ErasesStep.field (.free _))
    |>.andThen (ErasesStep.field .string) : ErasesStep _ _) t
theorem AlterConfigsResourceResponse44.within (version : Int16) (t : AlterConfigsResourceResponse44) : Within (AlterConfigsResourceResponse44.decodeA version t) 7 0 :=
  (((WithinStep.field .int16)
    |>.andThen (WithinStep.field .string)
    |>.andThen (WithinStep.field .int8)
    |>.andThen (WithinStep.field .string) : WithinStep _ _ _) t).mono (by decide) (by decide)

/-- message/messages.gen.go:11020-11040 `IncrementalAlterConfigsResponse.Decode`, with the memory it asks for -/
def IncrementalAlterConfigsResponse.decodeA (version : Int16) : IncrementalAlterConfigsResponse → ADec IncrementalAlterConfigsResponse :=
    ADec.field ADec.int32 (fun t x => { t with ThrottleTimeMs := x }) ;>>
    ADec.fieldStructs (AlterConfigsResourceResponse44.decodeA version {}) (·.Responses) (fun t x => { t with Responses := x })
theorem IncrementalAlterConfigsResponse.erases (version : Int16) (t : IncrementalAlterConfigsResponse) : Erases (IncrementalAlterConfigsResponse.decodeA version t) (IncrementalAlterConfigsResponse.decode version t) :=
  ((ErasesStep.field (.free _))
    |>.andThen (ErasesStep.structs (AlterConfigsResourceResponse44.erases version {})) : ErasesStep _ _) t
theorem IncrementalAlterConfigsResponse.within (version : Int16) (t : IncrementalAlterConfigsResponse) : Within (IncrementalAlterConfigsResponse.decodeA version t) 8 1 :=
  (((WithinStep.field .int32)
    |>.andThen (WithinStep.structs ((AlterConfigsResourceResponse44.within version {}).mono (by decide) (Nat.le_refl _))) : WithinStep _ _ _) t).mono (by decide) (by decide)

end Kafka.Msg
