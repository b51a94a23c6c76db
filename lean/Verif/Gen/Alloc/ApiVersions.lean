import Verif.Message.AllocLemmas
import Verif.Gen.Model.ApiVersions
/-!
Generated by tools/gen_messages.py: memory asked for by decoding the ApiVersions messages.
-/
namespace Kafka.Msg

/-- message/messages.gen.go:5237-5252 `ApiVersionsRequest.Decode`, with the memory it asks for -/
def ApiVersionsRequest.decodeA (version : Int16) : ApiVersionsRequest → ADec ApiVersionsRequest :=
    ADec.onlyIf (version ≥ 3) (ADec.field ADec.string (fun t x => { t with ClientSoftwareName := x })) ;>>
    ADec.onlyIf (version ≥ 3) (ADec.field ADec.string (fun t x => { t with ClientSoftwareVersion := x }))
theorem ApiVersionsRequest.erases (version : Int16) (t : ApiVersionsRequest) : Erases (ApiVersionsRequest.decodeA version t) (ApiVersionsRequest.decode version t) :=
  ((ErasesStep.onlyIf (ErasesStep.field .string))
    |>.andThen (ErasesStep.onlyIf (ErasesStep.field .string)) : ErasesStep _ _) t
theorem ApiVersionsRequest.within (version : Int16) (t : ApiVersionsRequest) (h : version ≥ 3) : Within (ApiVersionsRequest.decodeA version t) 2 0 :=
  (((WithinStep.present h (WithinStep.field .string))
    |>.andThen (WithinStep.onlyIf (fun _ => WithinStep.field .string)) : WithinStep _ _ _) t).mono (by decide) (by decide)

/-- message/messages.gen.go:5341-5356 `ApiVersionsResponseKey18.Decode`, with the memory it asks for -/
def ApiVersionsResponseKey18.decodeA (_version : Int16) : ApiVersionsResponseKey18 → ADec ApiVersionsResponseKey18 :=
    ADec.field ADec.int16 (fun t x => { t with ApiKey := x }) ;>>
    ADec.field ADec.int16 (fun t x => { t with MinVersion := x }) ;>>
    ADec.field ADec.int16 (fun t x => { t with MaxVersion := x })
theorem ApiVersionsResponseKey18.erases (version : Int16) (t : ApiVersionsResponseKey18) : Erases (ApiVersionsResponseKey18.decodeA version t) (ApiVersionsResponseKey18.decode version t) :=
  ((ErasesStep.field (.free _))
    |>.andThen (ErasesStep.field (.free _))
    |>.andThen (ErasesStep.field (.free _)) : ErasesStep _ _) t
theorem ApiVersionsResponseKey18.within (version : Int16) (t : ApiVersionsResponseKey18) : Within (ApiVersionsResponseKey18.decodeA version t) 6 0 :=
  (((WithinStep.field .int16)
    |>.andThen (WithinStep.field .int16)
    |>.andThen (WithinStep.field .int16) : WithinStep _ _ _) t).mono (by decide) (by decide)

/-- message/messages.gen.go:5290-5316 `ApiVersionsResponse.Decode`, with the memory it asks for -/
def ApiVersionsResponse.decodeA (version : Int16) : ApiVersionsResponse → ADec ApiVersionsResponse :=
    ADec.field ADec.int16 (fun t x => { t with ErrorCode := x }) ;>>
    ADec.fieldStructs (ApiVersionsResponseKey18.decodeA version {}) (·.ApiKeys) (fun t x => { t with ApiKeys := x }) ;>>
    ADec.onlyIf (version ≥ 1) (ADec.field ADec.int32 (fun t x => { t with ThrottleTimeMs := x }))
theorem ApiVersionsResponse.erases (version : Int16) (t : ApiVersionsResponse) : Erases (ApiVersionsResponse.decodeA version t) (ApiVersionsResponse.decode version t) :=
  ((ErasesStep.field (.free _))
    |>.andThen (ErasesStep.structs (ApiVersionsResponseKey18.erases version {}))
    |>.andThen (ErasesStep.onlyIf (ErasesStep.field (.free _))) : ErasesStep _ _) t
theorem ApiVersionsResponse.within (version : Int16) (t : ApiVersionsResponse) : Within (ApiVersionsResponse.decodeA version t) 6 1 :=
  (((WithinStep.field .int16)
    |>.andThen (WithinStep.structs ((ApiVersionsResponseKey18.within version {}).mono (by decide) (Nat.le_refl _)))
    |>.andThen (WithinStep.onlyIf (fun _ => WithinStep.field .int32)) : WithinStep _ _ _) t).mono (by decide) (by decide)

end Kafka.Msg
