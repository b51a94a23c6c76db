import Verif.Message.Work
import Verif.Gen.Model.ApiVersions
/-!
Generated by tools/gen_messages.py: steps taken by decoding the ApiVersions messages.
-/
namespace Kafka.Msg

/-- message/messages.gen.go:5237-5252 `ApiVersionsRequest.Decode`, with the steps it takes -/
def ApiVersionsRequest.decodeW (version : Int16) : ApiVersionsRequest → ADec ApiVersionsRequest :=
    ADec.onlyIf (version ≥ 3) (ADec.field WDec.string (fun t x => { t with ClientSoftwareName := x })) ;>>
    ADec.onlyIf (version ≥ 3) (ADec.field WDec.string (fun t x => { t with ClientSoftwareVersion := x }))
theorem ApiVersionsRequest.erasesW (version : Int16) (t : ApiVersionsRequest) : Erases (ApiVersionsRequest.decodeW version t) (ApiVersionsRequest.decode version t) :=
  ((ErasesStep.onlyIf (ErasesStep.field .stringW))
    |>.andThen (ErasesStep.onlyIf (ErasesStep.field .stringW)) : ErasesStep _ _) t
theorem ApiVersionsRequest.spends (version : Int16) (t : ApiVersionsRequest) (h : version ≥ 3) : Spends (ApiVersionsRequest.decodeW version t) 3 1 :=
  (((SpendsStep.present h (SpendsStep.field .string))
    |>.andThen (SpendsStep.onlyIf (fun _ => SpendsStep.field .string)) : SpendsStep _ _) t).mono (by decide) (by decide)
theorem ApiVersionsRequest.spends0 (version : Int16) (t : ApiVersionsRequest) : Spends (ApiVersionsRequest.decodeW version t) 0 1 :=
  (((SpendsStep.onlyIf (fun _ => SpendsStep.field .string))
    |>.andThen (SpendsStep.onlyIf (fun _ => SpendsStep.field .string)) : SpendsStep _ _) t).mono (by decide) (by decide)

/-- message/messages.gen.go:5341-5356 `ApiVersionsResponseKey18.Decode`, with the steps it takes -/
def ApiVersionsResponseKey18.decodeW (_version : Int16) : ApiVersionsResponseKey18 → ADec ApiVersionsResponseKey18 :=
    ADec.field WDec.int16 (fun t x => { t with ApiKey := x }) ;>>
    ADec.field WDec.int16 (fun t x => { t with MinVersion := x }) ;>>
    ADec.field WDec.int16 (fun t x => { t with MaxVersion := x })
theorem ApiVersionsResponseKey18.erasesW (version : Int16) (t : ApiVersionsResponseKey18) : Erases (ApiVersionsResponseKey18.decodeW version t) (ApiVersionsResponseKey18.decode version t) :=
  ((ErasesStep.field (.read _))
    |>.andThen (ErasesStep.field (.read _))
    |>.andThen (ErasesStep.field (.read _)) : ErasesStep _ _) t
theorem ApiVersionsResponseKey18.spends (version : Int16) (t : ApiVersionsResponseKey18) : Spends (ApiVersionsResponseKey18.decodeW version t) 9 1 :=
  (((SpendsStep.field .int16)
    |>.andThen (SpendsStep.field .int16)
    |>.andThen (SpendsStep.field .int16) : SpendsStep _ _) t).mono (by decide) (by decide)
theorem ApiVersionsResponseKey18.spends0 (version : Int16) (t : ApiVersionsResponseKey18) : Spends (ApiVersionsResponseKey18.decodeW version t) 0 1 :=
  (ApiVersionsResponseKey18.spends version t).mono (Nat.zero_le _) (Nat.le_refl _)

/-- message/messages.gen.go:5290-5316 `ApiVersionsResponse.Decode`, with the steps it takes -/
def ApiVersionsResponse.decodeW (version : Int16) : ApiVersionsResponse → ADec ApiVersionsResponse :=
    ADec.field WDec.int16 (fun t x => { t with ErrorCode := x }) ;>>
    WDec.fieldStructs (ApiVersionsResponseKey18.decodeW version {}) (·.ApiKeys) (fun t x => { t with ApiKeys := x }) ;>>
    ADec.onlyIf (version ≥ 1) (ADec.field WDec.int32 (fun t x => { t with ThrottleTimeMs := x }))
theorem ApiVersionsResponse.erasesW (version : Int16) (t : ApiVersionsResponse) : Erases (ApiVersionsResponse.decodeW version t) (ApiVersionsResponse.decode version t) :=
  ((ErasesStep.field (.read _))
    |>.andThen (ErasesStep.structsW (ApiVersionsResponseKey18.erasesW version {}))
    |>.andThen (ErasesStep.onlyIf (ErasesStep.field (.read _))) : ErasesStep _ _) t
theorem ApiVersionsResponse.spends (version : Int16) (t : ApiVersionsResponse) : Spends (ApiVersionsResponse.decodeW version t) 10 1 :=
  (((SpendsStep.field .int16)
    |>.andThen (SpendsStep.structs ((ApiVersionsResponseKey18.spends version {}).mono (by decide) (Nat.le_refl _)))
    |>.andThen (SpendsStep.onlyIf (fun _ => SpendsStep.field .int32)) : SpendsStep _ _) t).mono (by decide) (by decide)
theorem ApiVersionsResponse.spends0 (version : Int16) (t : ApiVersionsResponse) : Spends (ApiVersionsResponse.decodeW version t) 0 1 :=
  (ApiVersionsResponse.spends version t).mono (Nat.zero_le _) (Nat.le_refl _)

/-- The structures of the ApiVersions messages. -/
def workApiVersions : List (Σ M : MsgType, Int16 → M.T → ADec M.T) :=
  [⟨ApiVersionsRequest.type, ApiVersionsRequest.decodeW⟩,
   ⟨ApiVersionsResponse.type, ApiVersionsResponse.decodeW⟩,
   ⟨ApiVersionsResponseKey18.type, ApiVersionsResponseKey18.decodeW⟩]
theorem workApiVersions_erases : ∀ p ∈ workApiVersions, ∀ v t, Erases (p.2 v t) (p.1.decode v t) := by
  unfold workApiVersions
  simp only [List.forall_mem_cons]
  exact ⟨ApiVersionsRequest.erasesW, ApiVersionsResponse.erasesW, ApiVersionsResponseKey18.erasesW, fun _ h => absurd h (by simp)⟩
theorem workApiVersions_spends : ∀ p ∈ workApiVersions, ∀ v t, Spends (p.2 v t) 0 1 := by
  unfold workApiVersions
  simp only [List.forall_mem_cons]
  exact ⟨ApiVersionsRequest.spends0, ApiVersionsResponse.spends0, ApiVersionsResponseKey18.spends0, fun _ h => absurd h (by simp)⟩

end Kafka.Msg
