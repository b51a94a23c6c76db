import Verif.Message.AllocLemmas
import Verif.Gen.Model.DescribeConfigs
/-!
Generated by tools/gen_messages.py: memory asked for by decoding the DescribeConfigs messages.
-/
namespace Kafka.Msg

/-- message/messages.gen.go:8509-8524 `DescribeConfigsResource32.Decode`, with the memory it asks for -/
def DescribeConfigsResource32.decodeA (_version : Int16) : DescribeConfigsResource32 → ADec DescribeConfigsResource32 :=
    ADec.field ADec.int8 (fun t x => { t with ResourceType := x }) ;>>
    ADec.field ADec.string (fun t x => { t with ResourceName := x }) ;>>
    ADec.field ADec.stringArray (fun t x => { t with ConfigurationKeys := x })
theorem DescribeConfigsResource32.erases (version : Int16) (t : DescribeConfigsResource32) : Erases (DescribeConfigsResource32.decodeA version t) (DescribeConfigsResource32.decode version t) :=
  ((ErasesStep.field (.free _))
    |>.andThen (ErasesStep.field .string)
    |>.andThen (ErasesStep.field (.arrayOf .string)) : ErasesStep _ _) t
theorem DescribeConfigsResource32.within (version : Int16) (t : DescribeConfigsResource32) : Within (DescribeConfigsResource32.decodeA version t) 7 1 :=
  (((WithinStep.field .int8)
    |>.andThen (WithinStep.field .string)
    |>.andThen (WithinStep.field .stringArray) : WithinStep _ _ _) t).mono (by decide) (by decide)

/-- message/messages.gen.go:8462-8484 `DescribeConfigsRequest.Decode`, with the memory it asks for -/
def DescribeConfigsRequest.decodeA (version : Int16) : DescribeConfigsRequest → ADec DescribeConfigsRequest :=
    ADec.fieldStructs (DescribeConfigsResource32.decodeA version {}) (·.Resources) (fun t x => { t with Resources := x }) ;>>
    ADec.onlyIf (version ≥ 1) (ADec.field ADec.bool (fun t x => { t with IncludeSynoyms := x }))
theorem DescribeConfigsRequest.erases (version : Int16) (t : DescribeConfigsRequest) : Erases (DescribeConfigsRequest.decodeA version t) (DescribeConfigsRequest.decode version t) :=
  ((ErasesStep.structs (DescribeConfigsResource32.erases version {}))
    |>.andThen (ErasesStep.onlyIf (ErasesStep.field (.free _))) : ErasesStep _ _) t
theorem DescribeConfigsRequest.within (version : Int16) (t : DescribeConfigsRequest) : Within (DescribeConfigsRequest.decodeA version t) 4 2 :=
  (((WithinStep.structs ((DescribeConfigsResource32.within version {}).mono (by decide) (Nat.le_refl _)))
    |>.andThen (WithinStep.onlyIf (fun _ => WithinStep.field .bool)) : WithinStep _ _ _) t).mono (by decide) (by decide)

/-- message/messages.gen.go:8786-8807 `DescribeConfigsSynonym32.Decode`, with the memory it asks for -/
def DescribeConfigsSynonym32.decodeA (version : Int16) : DescribeConfigsSynonym32 → ADec DescribeConfigsSynonym32 :=
    ADec.onlyIf (version ≥ 1) (ADec.field ADec.string (fun t x => { t with Name := x })) ;>>
    ADec.onlyIf (version ≥ 1) (ADec.field ADec.string (fun t x => { t with Value := x })) ;>>
    ADec.onlyIf (version ≥ 1) (ADec.field ADec.int8 (fun t x => { t with Source := x }))
theorem DescribeConfigsSynonym32.erases (version : Int16) (t : DescribeConfigsSynonym32) : Erases (DescribeConfigsSynonym32.decodeA version t) (DescribeConfigsSynonym32.decode version t) :=
  ((ErasesStep.onlyIf (ErasesStep.field .string))
    |>.andThen (ErasesStep.onlyIf (ErasesStep.field .string))
    |>.andThen (ErasesStep.onlyIf (ErasesStep.field (.free _))) : ErasesStep _ _) t
theorem DescribeConfigsSynonym32.within (version : Int16) (t : DescribeConfigsSynonym32) (h : version ≥ 1) : Within (DescribeConfigsSynonym32.decodeA version t) 2 0 :=
  (((WithinStep.present h (WithinStep.field .string))
    |>.andThen (WithinStep.onlyIf (fun _ => WithinStep.field .string))
    |>.andThen (WithinStep.onlyIf (fun _ => WithinStep.field .int8)) : WithinStep _ _ _) t).mono (by decide) (by decide)

/-- message/messages.gen.go:8703-8749 `DescribeConfigsResourceResult32.Decode`, with the memory it asks for -/
def DescribeConfigsResourceResult32.decodeA (version : Int16) : DescribeConfigsResourceResult32 → ADec DescribeConfigsResourceResult32 :=
    ADec.field ADec.string (fun t x => { t with Name := x }) ;>>
    ADec.field ADec.string (fun t x => { t with Value := x }) ;>>
    ADec.field ADec.bool (fun t x => { t with ReadOnly := x }) ;>>
    ADec.onlyIf (version ≥ 0 ∧ version ≤ 0) (ADec.field ADec.bool (fun t x => { t with IsDefault := x })) ;>>
    ADec.onlyIf (version ≥ 1) (ADec.field ADec.int8 (fun t x => { t with ConfigSource := x })) ;>>
    ADec.field ADec.bool (fun t x => { t with IsSensitive := x }) ;>>
    ADec.onlyIf (version ≥ 1) (ADec.fieldStructs (DescribeConfigsSynonym32.decodeA version {}) (·.Synonyms) (fun t x => { t with Synonyms := x }))
theorem DescribeConfigsResourceResult32.erases (version : Int16) (t : DescribeConfigsResourceResult32) : Erases (DescribeConfigsResourceResult32.decodeA version t) (DescribeConfigsResourceResult32.decode version t) :=
  ((ErasesStep.field .string)
    |>.andThen (ErasesStep.field .string)
    |>.andThen (ErasesStep.field (.free _))
    |>.andThen (ErasesStep.onlyIf (ErasesStep.field (.free _)))
    |>.andThen (ErasesStep.onlyIf (ErasesStep.field (.free _)))
    |>.andThen (ErasesStep.field (.free _))
    |>.andThen (ErasesStep.onlyIf (ErasesStep.structs (DescribeConfigsSynonym32.erases version {}))) : ErasesStep _ _) t
theorem DescribeConfigsResourceResult32.within (version : Int16) (t : DescribeConfigsResourceResult32) : Within (DescribeConfigsResourceResult32.decodeA version t) 6 1 :=
  (((WithinStep.field .string)
    |>.andThen (WithinStep.field .string)
    |>.andThen (WithinStep.field .bool)
    |>.andThen (WithinStep.onlyIf (fun _ => WithinStep.field .bool))
    |>.andThen (WithinStep.onlyIf (fun _ => WithinStep.field .int8))
    |>.andThen (WithinStep.field .bool)
    |>.andThen (WithinStep.onlyIf (fun h => WithinStep.structs ((DescribeConfigsSynonym32.within version {} h).mono (by decide) (Nat.le_refl _)))) : WithinStep _ _ _) t).mono (by decide) (by decide)

/-- message/messages.gen.go:8614-8646 `DescribeConfigsResult32.Decode`, with the memory it asks for -/
def DescribeConfigsResult32.decodeA (version : Int16) : DescribeConfigsResult32 → ADec DescribeConfigsResult32 :=
    ADec.field ADec.int16 (fun t x => { t with ErrorCode := x }) ;>>
    ADec.field ADec.string (fun t x => { t with ErrorMessage := x }) ;>>
    ADec.field ADec.int8 (fun t x => { t with ResourceType := x }) ;>>
    ADec.field ADec.string (fun t x => { t with ResourceName := x }) ;>>
    ADec.fieldStructs (DescribeConfigsResourceResult32.decodeA version {}) (·.Configs) (fun t x => { t with Configs := x })
theorem DescribeConfigsResult32.erases (version : Int16) (t : DescribeConfigsResult32) : Erases (DescribeConfigsResult32.decodeA version t) (DescribeConfigsResult32.decode version t) :=
  ((ErasesStep.field (.free _))
    |>.andThen (ErasesStep.field .string)
    |>.andThen (ErasesStep.field (.free _))
    |>.andThen (ErasesStep.field .string)
    |>.andThen (ErasesStep.structs (DescribeConfigsResourceResult32.erases version {})) : ErasesStep _ _) t
theorem DescribeConfigsResult32.within (version : Int16) (t : DescribeConfigsResult32) : Within (DescribeConfigsResult32.decodeA version t) 11 2 :=
  (((WithinStep.field .int16)
    |>.andThen (WithinStep.field .string)
    |>.andThen (WithinStep.field .int8)
    |>.andThen (WithinStep.field .string)
    |>.andThen (WithinStep.structs ((DescribeConfigsResourceResult32.within version {}).mono (by decide) (Nat.le_refl _))) : WithinStep _ _ _) t).mono (by decide) (by decide)

/-- message/messages.gen.go:8555-8575 `DescribeConfigsResponse.Decode`, with the memory it asks for -/
def DescribeConfigsResponse.decodeA (version : Int16) : DescribeConfigsResponse → ADec DescribeConfigsResponse :=
    ADec.field ADec.int32 (fun t x => { t with ThrottleTimeMs := x }) ;>>
    ADec.fieldStructs (DescribeConfigsResult32.decodeA version {}) (·.Results) (fun t x => { t with Results := x })
theorem DescribeConfigsResponse.erases (version : Int16) (t : DescribeConfigsResponse) : Erases (DescribeConfigsResponse.decodeA version t) (DescribeConfigsResponse.decode version t) :=
  ((ErasesStep.field (.free _))
    |>.andThen (ErasesStep.structs (DescribeConfigsResult32.erases version {})) : ErasesStep _ _) t
theorem DescribeConfigsResponse.within (version : Int16) (t : DescribeConfigsResponse) : Within (DescribeConfigsResponse.decodeA version t) 8 3 :=
  (((WithinStep.field .int32)
    |>.andThen (WithinStep.structs ((DescribeConfigsResult32.within version {}).mono (by decide) (Nat.le_refl _))) : WithinStep _ _ _) t).mono (by decide) (by decide)

end Kafka.Msg
