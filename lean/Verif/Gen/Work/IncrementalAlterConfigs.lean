import Verif.Message.Work
import Verif.Gen.Model.IncrementalAlterConfigs
/-!
Generated by tools/gen_messages.py: steps taken by decoding the IncrementalAlterConfigs messages.
-/
namespace Kafka.Msg

/-- message/messages.gen.go:10974-10989 `AlterableConfig44.Decode`, with the steps it takes -/
def AlterableConfig44.decodeW (_version : Int16) : AlterableConfig44 → ADec AlterableConfig44 :=
    ADec.field WDec.string (fun t x => { t with Name := x }) ;>>
    ADec.field WDec.int8 (fun t x => { t with ConfigOperation := x }) ;>>
    ADec.field WDec.string (fun t x => { t with Value := x })
theorem AlterableConfig44.erasesW (version : Int16) (t : AlterableConfig44) : Erases (AlterableConfig44.decodeW version t) (AlterableConfig44.decode version t) :=
  ((ErasesStep.field .stringW)
    |>.andThen (ErasesStep.field (.read _))
    |>.andThen (ErasesStep.field .stringW) : ErasesStep _ _) t
theorem AlterableConfig44.spends (version : Int16) (t : AlterableConfig44) : Spends (AlterableConfig44.decodeW version t) 7 1 :=
  (((SpendsStep.field .string)
    |>.andThen (SpendsStep.field .int8)
    |>.andThen (SpendsStep.field .string) : SpendsStep _ _) t).mono (by decide) (by decide)
theorem AlterableConfig44.spends0 (version : Int16) (t : AlterableConfig44) : Spends (AlterableConfig44.decodeW version t) 0 1 :=
  (AlterableConfig44.spends version t).mono (Nat.zero_le _) (Nat.le_refl _)

/-- message/messages.gen.go:10925-10949 `AlterConfigsResource44.Decode`, with the steps it takes -/
def AlterConfigsResource44.decodeW (version : Int16) : AlterConfigsResource44 → ADec AlterConfigsResource44 :=
    ADec.field WDec.int8 (fun t x => { t with ResourceType := x }) ;>>
    ADec.field WDec.string (fun t x => { t with ResourceName := x }) ;>>
    WDec.fieldStructs (AlterableConfig44.decodeW version {}) (·.Configs) (fun t x => { t with Configs := x })
theorem AlterConfigsResource44.erasesW (version : Int16) (t : AlterConfigsResource44) : Erases (AlterConfigsResource44.decodeW version t) (AlterConfigsResource44.decode version t) :=
  ((ErasesStep.field (.read _))
    |>.andThen (ErasesStep.field .stringW)
    |>.andThen (ErasesStep.structsW (AlterableConfig44.erasesW version {})) : ErasesStep _ _) t
theorem AlterConfigsResource44.spends (version : Int16) (t : AlterConfigsResource44) : Spends (AlterConfigsResource44.decodeW version t) 11 1 :=
  (((SpendsStep.field .int8)
    |>.andThen (SpendsStep.field .string)
    |>.andThen (SpendsStep.structs ((AlterableConfig44.spends version {}).mono (by decide) (Nat.le_refl _))) : SpendsStep _ _) t).mono (by decide) (by decide)
theorem AlterConfigsResource44.spends0 (version : Int16) (t : AlterConfigsResource44) : Spends (AlterConfigsResource44.decodeW version t) 0 1 :=
  (AlterConfigsResource44.spends version t).mono (Nat.zero_le _) (Nat.le_refl _)

/-- message/messages.gen.go:10872-10892 `IncrementalAlterConfigsRequest.Decode`, with the steps it takes -/
def IncrementalAlterConfigsRequest.decodeW (version : Int16) : IncrementalAlterConfigsRequest → ADec IncrementalAlterConfigsRequest :=
    WDec.fieldStructs (AlterConfigsResource44.decodeW version {}) (·.Resources) (fun t x => { t with Resources := x }) ;>>
    ADec.field WDec.bool (fun t x => { t with ValidateOnly := x })
theorem IncrementalAlterConfigsRequest.erasesW (version : Int16) (t : IncrementalAlterConfigsRequest) : Erases (IncrementalAlterConfigsRequest.decodeW version t) (IncrementalAlterConfigsRequest.decode version t) :=
  ((ErasesStep.structsW (AlterConfigsResource44.erasesW version {}))
    |>.andThen (ErasesStep.field (.read _)) : ErasesStep _ _) t
theorem IncrementalAlterConfigsRequest.spends (version : Int16) (t : IncrementalAlterConfigsRequest) : Spends (IncrementalAlterConfigsRequest.decodeW version t) 8 1 :=
  (((SpendsStep.structs ((AlterConfigsResource44.spends version {}).mono (by decide) (Nat.le_refl _)))
    |>.andThen (SpendsStep.field .bool) : SpendsStep _ _) t).mono (by decide) (by decide)
theorem IncrementalAlterConfigsRequest.spends0 (version : Int16) (t : IncrementalAlterConfigsRequest) : Spends (IncrementalAlterConfigsRequest.decodeW version t) 0 1 :=
  (IncrementalAlterConfigsRequest.spends version t).mono (Nat.zero_le _) (Nat.le_refl _)

/-- message/messages.gen.go:11068-11087 `AlterConfigsResourceResponse44.Decode`, with the steps it takes -/
def AlterConfigsResourceResponse44.decodeW (_version : Int16) : AlterConfigsResourceResponse44 → ADec AlterConfigsResourceResponse44 :=
    ADec.field WDec.int16 (fun t x => { t with ErrorCode := x }) ;>>
    ADec.field WDec.string (fun t x => { t with ErrorMessage := x }) ;>>
    ADec.field WDec.int8 (fun t x => { t with ResourceType := x }) ;>>
    ADec.field WDec.string (fun t x => { t with ResourceName := x })
theorem AlterConfigsResourceResponse44.erasesW (version : Int16) (t : AlterConfigsResourceResponse44) : Erases (AlterConfigsResourceResponse44.decodeW version t) (AlterConfigsResourceResponse44.decode version t) :=
  ((ErasesStep.field (.read _))
    |>.andThen (ErasesStep.field .stringW)
    |>.andThen (ErasesStep.field (.read _))
    |>.andThen (ErasesStep.field .stringW) : ErasesStep _ _) t
theorem AlterConfigsResourceResponse44.spends (version : Int16) (t : AlterConfigsResourceResponse44) : Spends (AlterConfigsResourceResponse44.decodeW version t) 10 1 :=
  (((SpendsStep.field .int16)
    |>.andThen (SpendsStep.field .string)
    |>.andThen (SpendsStep.field .int8)
    |>.andThen (SpendsStep.field .string) : SpendsStep _ _) t).mono (by decide) (by decide)
theorem AlterConfigsResourceResponse44.spends0 (version : Int16) (t : AlterConfigsResourceResponse44) : Spends (AlterConfigsResourceResponse44.decodeW version t) 0 1 :=
  (AlterConfigsResourceResponse44.spends version t).mono (Nat.zero_le _) (Nat.le_refl _)

/-- message/messages.gen.go:11020-11040 `IncrementalAlterConfigsResponse.Decode`, with the steps it takes -/
def IncrementalAlterConfigsResponse.decodeW (version : Int16) : IncrementalAlterConfigsResponse → ADec IncrementalAlterConfigsResponse :=
    ADec.field WDec.int32 (fun t x => { t with ThrottleTimeMs := x }) ;>>
    WDec.fieldStructs (AlterConfigsResourceResponse44.decodeW version {}) (·.Responses) (fun t x => { t with Responses := x })
theorem IncrementalAlterConfigsResponse.erasesW (version : Int16) (t : IncrementalAlterConfigsResponse) : Erases (IncrementalAlterConfigsResponse.decodeW version t) (IncrementalAlterConfigsResponse.decode version t) :=
  ((ErasesStep.field (.read _))
    |>.andThen (ErasesStep.structsW (AlterConfigsResourceResponse44.erasesW version {})) : ErasesStep _ _) t
theorem IncrementalAlterConfigsResponse.spends (version : Int16) (t : IncrementalAlterConfigsResponse) : Spends (IncrementalAlterConfigsResponse.decodeW version t) 14 1 :=
  (((SpendsStep.field .int32)
    |>.andThen (SpendsStep.structs ((AlterConfigsResourceResponse44.spends version {}).mono (by decide) (Nat.le_refl _))) : SpendsStep _ _) t).mono (by decide) (by decide)
theorem IncrementalAlterConfigsResponse.spends0 (version : Int16) (t : IncrementalAlterConfigsResponse) : Spends (IncrementalAlterConfigsResponse.decodeW version t) 0 1 :=
  (IncrementalAlterConfigsResponse.spends version t).mono (Nat.zero_le _) (Nat.le_refl _)

/-- The structures of the IncrementalAlterConfigs messages. -/
def workIncrementalAlterConfigs : List (Σ M : MsgType, Int16 → M.T → ADec M.T) :=
  [⟨IncrementalAlterConfigsRequest.type, IncrementalAlterConfigsRequest.decodeW⟩,
   ⟨AlterConfigsResource44.type, AlterConfigsResource44.decodeW⟩,
   ⟨AlterableConfig44.type, AlterableConfig44.decodeW⟩,
   ⟨IncrementalAlterConfigsResponse.type, IncrementalAlterConfigsResponse.decodeW⟩,
   ⟨AlterConfigsResourceResponse44.type, AlterConfigsResourceResponse44.decodeW⟩]
theorem workIncrementalAlterConfigs_erases : ∀ p ∈ workIncrementalAlterConfigs, ∀ v t, Erases (p.2 v t) (p.1.decode v t) := by
  unfold workIncrementalAlterConfigs
  simp only [List.forall_mem_cons]
  exact ⟨IncrementalAlterConfigsRequest.erasesW, AlterConfigsResource44.erasesW, AlterableConfig44.erasesW, IncrementalAlterConfigsResponse.erasesW, AlterConfigsResourceResponse44.erasesW, fun _ h => absurd h (by simp)⟩
theorem workIncrementalAlterConfigs_spends : ∀ p ∈ workIncrementalAlterConfigs, ∀ v t, Spends (p.2 v t) 0 1 := by
  unfold workIncrementalAlterConfigs
  simp only [List.forall_mem_cons]
  exact ⟨IncrementalAlterConfigsRequest.spends0, AlterConfigsResource44.spends0, AlterableConfig44.spends0, IncrementalAlterConfigsResponse.spends0, AlterConfigsResourceResponse44.spends0, fun _ h => absurd h (by simp)⟩

end Kafka.Msg
