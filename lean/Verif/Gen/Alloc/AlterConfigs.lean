import Verif.Message.AllocLemmas
import Verif.Gen.Model.AlterConfigs
/-!
Generated by tools/gen_messages.py: memory asked for by decoding the AlterConfigs messages.
-/
namespace Kafka.Msg

/-- message/messages.gen.go:8937-8948 `AlterableConfig33.Decode`, with the memory it asks for -/
def AlterableConfig33.decodeA (_version : Int16) : AlterableConfig33 → ADec AlterableConfig33 :=
    ADec.field ADec.string (fun t x => { t with Name := x }) ;>>
    ADec.field ADec.string (fun t x => { t with Value := x })
theorem AlterableConfig33.erases (version : Int16) (t : AlterableConfig33) : Erases (AlterableConfig33.decodeA version t) (AlterableConfig33.decode version t) :=
  ((ErasesStep.field .string)
    |>.andThen (ErasesStep.field .string) : ErasesStep _ _) t
theorem AlterableConfig33.within (version : Int16) (t : AlterableConfig33) : Within (AlterableConfig33.decodeA version t) 4 0 :=
  (((WithinStep.field .string)
    |>.andThen (WithinStep.field .string) : WithinStep _ _ _) t).mono (by decide) (by decide)

/-- message/messages.gen.go:8891-8915 `AlterConfigsResource33.Decode`, with the memory it asks for -/
def AlterConfigsResource33.decodeA (version : Int16) : AlterConfigsResource33 → ADec AlterConfigsResource33 :=
    ADec.field ADec.int8 (fun t x => { t with ResourceType := x }) ;>>
    ADec.field ADec.string (fun t x => { t with ResourceName := x }) ;>>
    ADec.fieldStructs (AlterableConfig33.decodeA version {}) (·.Configs) (fun t x => { t with Configs := x })
theorem AlterConfigsResource33.erases (version : Int16) (t : AlterConfigsResource33) : Erases (AlterConfigsResource33.decodeA version t) (AlterConfigsResource33.decode version t) :=
  ((ErasesStep.field (.free _))
    |>.andThen (ErasesStep.field .string)
    |>.andThen (ErasesStep.structs (AlterableConfig33.erases version {})) : ErasesStep _ _) t
theorem AlterConfigsResource33.within (version : Int16) (t : AlterConfigsResource33) : Within (AlterConfigsResource33.decodeA version t) 7 1 :=
  (((WithinStep.field .int8)
    |>.andThen (WithinStep.field .string)
    |>.andThen (WithinStep.structs ((AlterableConfig33.within version {}).mono (by decide) (Nat.le_refl _))) : WithinStep _ _ _) t).mono (by decide) (by decide)

/-- message/messages.gen.go:8838-8858 `AlterConfigsRequest.Decode`, with the memory it asks for -/
def AlterConfigsRequest.decodeA (version : Int16) : AlterConfigsRequest → ADec AlterConfigsRequest :=
    ADec.fieldStructs (AlterConfigsResource33.decodeA version {}) (·.Resources) (fun t x => { t with Resources := x }) ;>>
    ADec.field ADec.bool (fun t x => { t with ValidateOnly := x })
theorem AlterConfigsRequest.erases (version : Int16) (t : AlterConfigsRequest) : Erases (AlterConfigsRequest.decodeA version t) (AlterConfigsRequest.decode version t) :=
  ((ErasesStep.structs (AlterConfigsResource33.erases version {}))
    |>.andThen (ErasesStep.field (.free _)) : ErasesStep _ _) t
theorem AlterConfigsRequest.within (version : Int16) (t : AlterConfigsRequest) : Within (AlterConfigsRequest.decodeA version t) 5 2 :=
  (((WithinStep.structs ((AlterConfigsResource33.within version {}).mono (by decide) (Nat.le_refl _)))
    |>.andThen (WithinStep.field .bool) : WithinStep _ _ _) t).mono (by decide) (by decide)

/-- message/messages.gen.go:9027-9046 `AlterConfigsResourceResponse33.Decode`, with the memory it asks for -/
def AlterConfigsResourceResponse33.decodeA (_version : Int16) : AlterConfigsResourceResponse33 → ADec AlterConfigsResourceResponse33 :=
    ADec.field ADec.int16 (fun t x => { t with ErrorCode := x }) ;>>
    ADec.field ADec.string (fun t x => { t with ErrorMessage := x }) ;>>
    ADec.field ADec.int8 (fun t x => { t with ResourceType := x }) ;>>
    ADec.field ADec.string (fun t x => { t with ResourceName := x })
theorem AlterConfigsResourceResponse33.erases (version : Int16) (t : AlterConfigsResourceResponse33) : Erases (AlterConfigsResourceResponse33.decodeA version t) (AlterConfigsResourceResponse33.decode version t) :=
  ((ErasesStep.field (.free _))
    |>.andThen (ErasesStep.field .string)
    |>.andThen (ErasesStep.field (.free _))
    |>.andThen (ErasesStep.field .string) : ErasesStep _ _) t
theorem AlterConfigsResourceResponse33.within (version : Int16) (t : AlterConfigsResourceResponse33) : Within (AlterConfigsResourceResponse33.decodeA version t) 7 0 :=
  (((WithinStep.field .int16)
    |>.andThen (WithinStep.field .string)
    |>.andThen (WithinStep.field .int8)
    |>.andThen (WithinStep.field .string) : WithinStep _ _ _) t).mono (by decide) (by decide)

/-- message/messages.gen.go:8979-8999 `AlterConfigsResponse.Decode`, with the memory it asks for -/
def AlterConfigsResponse.decodeA (version : Int16) : AlterConfigsResponse → ADec AlterConfigsResponse :=
    ADec.field ADec.int32 (fun t x => { t with ThrottleTimeMs := x }) ;>>
    ADec.fieldStructs (AlterConfigsResourceResponse33.decodeA version {}) (·.Responses) (fun t x => { t with Responses := x })
theorem AlterConfigsResponse.erases (version : Int16) (t : AlterConfigsResponse) : Erases (AlterConfigsResponse.decodeA version t) (AlterConfigsResponse.decode version t) :=
  ((ErasesStep.field (.free _))
    |>.andThen (ErasesStep.structs (AlterConfigsResourceResponse33.erases version {})) : ErasesStep _ _) t
theorem AlterConfigsResponse.within (version : Int16) (t : AlterConfigsResponse) : Within (AlterConfigsResponse.decodeA version t) 8 1 :=
  (((WithinStep.field .int32)
    |>.andThen (WithinStep.structs ((AlterConfigsResourceResponse33.within version {}).mono (by decide) (Nat.le_refl _))) : WithinStep _ _ _) t).mono (by decide) (by decide)

end Kafka.Msg
