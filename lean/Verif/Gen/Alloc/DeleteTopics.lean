import Verif.Message.AllocLemmas
import Verif.Gen.Model.DeleteTopics
/-!
Generated by tools/gen_messages.py: memory asked for by decoding the DeleteTopics messages.
-/
namespace Kafka.Msg

/-- message/messages.gen.go:5853-5864 `DeleteTopicsRequest.Decode`, with the memory it asks for -/
def DeleteTopicsRequest.decodeA (_version : Int16) : DeleteTopicsRequest → ADec DeleteTopicsRequest :=
    ADec.field ADec.stringArray (fun t x => { t with TopicNames := x }) ;>>
    ADec.field ADec.int32 (fun t x => { t with TimeoutMs := x })
theorem DeleteTopicsRequest.erases (version : Int16) (t : DeleteTopicsRequest) : Erases (DeleteTopicsRequest.decodeA version t) (DeleteTopicsRequest.decode version t) :=
  ((ErasesStep.field (.arrayOf .string))
    |>.andThen (ErasesStep.field (.free _)) : ErasesStep _ _) t
theorem DeleteTopicsRequest.within (version : Int16) (t : DeleteTopicsRequest) : Within (DeleteTopicsRequest.decodeA version t) 8 1 :=
  (((WithinStep.field .stringArray)
    |>.andThen (WithinStep.field .int32) : WithinStep _ _ _) t).mono (by decide) (by decide)

/-- message/messages.gen.go:5943-5954 `DeletableTopicResult20.Decode`, with the memory it asks for -/
def DeletableTopicResult20.decodeA (_version : Int16) : DeletableTopicResult20 → ADec DeletableTopicResult20 :=
    ADec.field ADec.string (fun t x => { t with Name := x }) ;>>
    ADec.field ADec.int16 (fun t x => { t with ErrorCode := x })
theorem DeletableTopicResult20.erases (version : Int16) (t : DeletableTopicResult20) : Erases (DeletableTopicResult20.decodeA version t) (DeletableTopicResult20.decode version t) :=
  ((ErasesStep.field .string)
    |>.andThen (ErasesStep.field (.free _)) : ErasesStep _ _) t
theorem DeletableTopicResult20.within (version : Int16) (t : DeletableTopicResult20) : Within (DeletableTopicResult20.decodeA version t) 4 0 :=
  (((WithinStep.field .string)
    |>.andThen (WithinStep.field .int16) : WithinStep _ _ _) t).mono (by decide) (by decide)

/-- message/messages.gen.go:5899-5921 `DeleteTopicsResponse.Decode`, with the memory it asks for -/
def DeleteTopicsResponse.decodeA (version : Int16) : DeleteTopicsResponse → ADec DeleteTopicsResponse :=
    ADec.onlyIf (version ≥ 1) (ADec.field ADec.int32 (fun t x => { t with ThrottleTimeMs := x })) ;>>
    ADec.fieldStructs (DeletableTopicResult20.decodeA version {}) (·.Responses) (fun t x => { t with Responses := x })
theorem DeleteTopicsResponse.erases (version : Int16) (t : DeleteTopicsResponse) : Erases (DeleteTopicsResponse.decodeA version t) (DeleteTopicsResponse.decode version t) :=
  ((ErasesStep.onlyIf (ErasesStep.field (.free _)))
    |>.andThen (ErasesStep.structs (DeletableTopicResult20.erases version {})) : ErasesStep _ _) t
theorem DeleteTopicsResponse.within (version : Int16) (t : DeleteTopicsResponse) : Within (DeleteTopicsResponse.decodeA version t) 4 1 :=
  (((WithinStep.onlyIf (fun _ => WithinStep.field .int32))
    |>.andThen (WithinStep.structs ((DeletableTopicResult20.within version {}).mono (by decide) (Nat.le_refl _))) : WithinStep _ _ _) t).mono (by decide) (by decide)

end Kafka.Msg
