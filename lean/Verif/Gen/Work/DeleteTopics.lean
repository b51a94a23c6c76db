import Verif.Message.Work
import Verif.Gen.Model.DeleteTopics
/-!
Generated by tools/gen_messages.py: steps taken by decoding the DeleteTopics messages.
-/
namespace Kafka.Msg

/-- message/messages.gen.go:5853-5864 `DeleteTopicsRequest.Decode`, with the steps it takes -/
def DeleteTopicsRequest.decodeW (_version : Int16) : DeleteTopicsRequest → ADec DeleteTopicsRequest :=
    ADec.field WDec.stringArray (fun t x => { t with TopicNames := x }) ;>>
    ADec.field WDec.int32 (fun t x => { t with TimeoutMs := x })
theorem DeleteTopicsRequest.erasesW (version : Int16) (t : DeleteTopicsRequest) : Erases (DeleteTopicsRequest.decodeW version t) (DeleteTopicsRequest.decode version t) :=
  ((ErasesStep.field (.arrayOfW .stringW))
    |>.andThen (ErasesStep.field (.read _)) : ErasesStep _ _) t
theorem DeleteTopicsRequest.spends (version : Int16) (t : DeleteTopicsRequest) : Spends (DeleteTopicsRequest.decodeW version t) 14 1 :=
  (((SpendsStep.field .stringArray)
    |>.andThen (SpendsStep.field .int32) : SpendsStep _ _) t).mono (by decide) (by decide)
theorem DeleteTopicsRequest.spends0 (version : Int16) (t : DeleteTopicsRequest) : Spends (DeleteTopicsRequest.decodeW version t) 0 1 :=
  (DeleteTopicsRequest.spends version t).mono (Nat.zero_le _) (Nat.le_refl _)

/-- message/messages.gen.go:5943-5954 `DeletableTopicResult20.Decode`, with the steps it takes -/
def DeletableTopicResult20.decodeW (_version : Int16) : DeletableTopicResult20 → ADec DeletableTopicResult20 :=
    ADec.field WDec.string (fun t x => { t with Name := x }) ;>>
    ADec.field WDec.int16 (fun t x => { t with ErrorCode := x })
theorem DeletableTopicResult20.erasesW (version : Int16) (t : DeletableTopicResult20) : Erases (DeletableTopicResult20.decodeW version t) (DeletableTopicResult20.decode version t) :=
  ((ErasesStep.field .stringW)
    |>.andThen (ErasesStep.field (.read _)) : ErasesStep _ _) t
theorem DeletableTopicResult20.spends (version : Int16) (t : DeletableTopicResult20) : Spends (DeletableTopicResult20.decodeW version t) 6 1 :=
  (((SpendsStep.field .string)
    |>.andThen (SpendsStep.field .int16) : SpendsStep _ _) t).mono (by decide) (by decide)
theorem DeletableTopicResult20.spends0 (version : Int16) (t : DeletableTopicResult20) : Spends (DeletableTopicResult20.decodeW version t) 0 1 :=
  (DeletableTopicResult20.spends version t).mono (Nat.zero_le _) (Nat.le_refl _)

/-- message/messages.gen.go:5899-5921 `DeleteTopicsResponse.Decode`, with the steps it takes -/
def DeleteTopicsResponse.decodeW (version : Int16) : DeleteTopicsResponse → ADec DeleteTopicsResponse :=
    ADec.onlyIf (version ≥ 1) (ADec.field WDec.int32 (fun t x => { t with ThrottleTimeMs := x })) ;>>
    WDec.fieldStructs (DeletableTopicResult20.decodeW version {}) (·.Responses) (fun t x => { t with Responses := x })
theorem DeleteTopicsResponse.erasesW (version : Int16) (t : DeleteTopicsResponse) : Erases (DeleteTopicsResponse.decodeW version t) (DeleteTopicsResponse.decode version t) :=
  ((ErasesStep.onlyIf (ErasesStep.field (.read _)))
    |>.andThen (ErasesStep.structsW (DeletableTopicResult20.erasesW version {})) : ErasesStep _ _) t
theorem DeleteTopicsResponse.spends (version : Int16) (t : DeleteTopicsResponse) : Spends (DeleteTopicsResponse.decodeW version t) 7 1 :=
  (((SpendsStep.onlyIf (fun _ => SpendsStep.field .int32))
    |>.andThen (SpendsStep.structs ((DeletableTopicResult20.spends version {}).mono (by decide) (Nat.le_refl _))) : SpendsStep _ _) t).mono (by decide) (by decide)
theorem DeleteTopicsResponse.spends0 (version : Int16) (t : DeleteTopicsResponse) : Spends (DeleteTopicsResponse.decodeW version t) 0 1 :=
  (DeleteTopicsResponse.spends version t).mono (Nat.zero_le _) (Nat.le_refl _)

/-- The structures of the DeleteTopics messages. -/
def workDeleteTopics : List (Σ M : MsgType, Int16 → M.T → ADec M.T) :=
  [⟨DeleteTopicsRequest.type, DeleteTopicsRequest.decodeW⟩,
   ⟨DeleteTopicsResponse.type, DeleteTopicsResponse.decodeW⟩,
   ⟨DeletableTopicResult20.type, DeletableTopicResult20.decodeW⟩]
theorem workDeleteTopics_erases : ∀ p ∈ workDeleteTopics, ∀ v t, Erases (p.2 v t) (p.1.decode v t) := by
  unfold workDeleteTopics
  simp only [List.forall_mem_cons]
  exact ⟨DeleteTopicsRequest.erasesW, DeleteTopicsResponse.erasesW, DeletableTopicResult20.erasesW, fun _ h => absurd h (by simp)⟩
theorem workDeleteTopics_spends : ∀ p ∈ workDeleteTopics, ∀ v t, Spends (p.2 v t) 0 1 := by
  unfold workDeleteTopics
  simp only [List.forall_mem_cons]
  exact ⟨DeleteTopicsRequest.spends0, DeleteTopicsResponse.spends0, DeletableTopicResult20.spends0, fun _ h => absurd h (by simp)⟩

end Kafka.Msg
