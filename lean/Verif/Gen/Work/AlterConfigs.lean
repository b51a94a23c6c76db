import Verif.Message.Work
import Verif.Gen.Model.AlterConfigs
/-!
Generated by tools/gen_messages.py: steps taken by decoding the AlterConfigs messages.
-/
namespace Kafka.Msg

/-- message/messages.gen.go:8937-8948 `AlterableConfig33.Decode`, with the steps it takes -/
def AlterableConfig33.decodeW (_version : Int16) : AlterableConfig33 → ADec AlterableConfig33 :=
    ADec.field WDec.string (fun t x => { t with Name := x }) ;>>
    ADec.field WDec.string (fun t x => { t with Value := x })
theorem AlterableConfig33.erasesW (version : Int16) (t : AlterableConfig33) : Erases (AlterableConfig33.decodeW version t) (AlterableConfig33.decode version t) :=
  ((ErasesStep.field .stringW)
    |>.andThen (ErasesStep.field .stringW) : ErasesStep _ _) t
theorem AlterableConfig33.spends (version : Int16) (t : AlterableConfig33) : Spends (AlterableConfig33.decodeW version t) 6 1 :=
  (((SpendsStep.field .string)
    |>.andThen (SpendsStep.field .string) : SpendsStep _ _) t).mono (by decide) (by decide)
theorem AlterableConfig33.spends0 (version : Int16) (t : AlterableConfig33) : Spends (AlterableConfig33.decodeW version t) 0 1 :=
  (AlterableConfig33.spends version t).mono (Nat.zero_le _) (Nat.le_refl _)

/-- message/messages.gen.go:8891-8915 `AlterConfigsResource33.Decode`, with the steps it takes -/
def AlterConfigsResource33.decodeW (version : Int16) : AlterConfigsResource33 → ADec AlterConfigsResource33 :=
    ADec.field WDec.int8 (fun t x => { t with ResourceType := x }) ;>>
    ADec.field WDec.string (fun t x => { t with ResourceName := x }) ;>>
    WDec.fieldStructs (AlterableConfig33.decodeW version {}) (·.Configs) (fun t x => { t with Configs := x })
theorem AlterConfigsResource33.erasesW (version : Int16) (t : AlterConfigsResource33) : Erases (AlterConfigsResource33.decodeW version t) (AlterConfigsResource33.decode version t) :=
  ((ErasesStep.field (.read _))
    |>.andThen (ErasesStep.field .stringW)
    |>.andThen (ErasesStep.structsW (AlterableConfig33.erasesW version {})) : ErasesStep _ _) t
theorem AlterConfigsResource33.spends (version : Int16) (t : AlterConfigsResource33) : Spends (AlterConfigsResource33.decodeW version t) 11 1 :=
  (((SpendsStep.field .int8)
    |>.andThen (SpendsStep.field .string)
    |>.andThen (SpendsStep.structs ((AlterableConfig33.spends version {}).mono (by decide) (Nat.le_refl _))) : SpendsStep _ _) t).mono (by decide) (by decide)
theorem AlterConfigsResource33.spends0 (version : Int16) (t : AlterConfigsResource33) : Spends (AlterConfigsResource33.decodeW version t) 0 1 :=
  (AlterConfigsResource33.spends version t).mono (Nat.zero_le _) (Nat.le_refl _)

/-- message/messages.gen.go:8838-8858 `AlterConfigsRequest.Decode`, with the steps it takes -/
def AlterConfigsRequest.decodeW (version : Int16) : AlterConfigsRequest → ADec AlterConfigsRequest :=
    WDec.fieldStructs (AlterConfigsResource33.decodeW version {}) (·.Resources) (fun t x => { t with Resources := x }) ;>>
    ADec.field WDec.bool (fun t x => { t with ValidateOnly := x })
theorem AlterConfigsRequest.erasesW (version : Int16) (t : AlterConfigsRequest) : Erases (AlterConfigsRequest.decodeW version t) (AlterConfigsRequest.decode version t) :=
  ((ErasesStep.structsW (AlterConfigsResource33.erasesW version {}))
    |>.andThen (ErasesStep.field (.read _)) : ErasesStep _ _) t
theorem AlterConfigsRequest.spends (version : Int16) (t : AlterConfigsRequest) : Spends (AlterConfigsRequest.decodeW version t) 8 1 :=
  (((SpendsStep.structs ((AlterConfigsResource33.spends version {}).mono (by decide) (Nat.le_refl _)))
    |>.andThen (SpendsStep.field .bool) : SpendsStep _ _) t).mono (by decide) (by decide)
theorem AlterConfigsRequest.spends0 (version : Int16) (t : AlterConfigsRequest) : Spends (AlterConfigsRequest.decodeW version t) 0 1 :=
  (AlterConfigsRequest.spends version t).mono (Nat.zero_le _) (Nat.le_refl _)

/-- message/messages.gen.go:9027-9046 `AlterConfigsResourceResponse33.Decode`, with the steps it takes -/
def AlterConfigsResourceResponse33.decodeW (_version : Int16) : AlterConfigsResourceResponse33 → ADec AlterConfigsResourceResponse33 :=
    ADec.field WDec.int16 (fun t x => { t with ErrorCode := x }) ;>>
    ADec.field WDec.string (fun t x => { t with ErrorMessage := x }) ;>>
    ADec.field WDec.int8 (fun t x => { t with ResourceType := x }) ;>>
    ADec.field WDec.string (fun t x => { t with ResourceName := x })
theorem AlterConfigsResourceResponse33.erasesW (version : Int16) (t : AlterConfigsResourceResponse33) : Erases (AlterConfigsResourceResponse33.decodeW version t) (AlterConfigsResourceResponse33.decode version t) :=
  ((ErasesStep.field (.read _))
    |>.andThen (ErasesStep.field .stringW)
    |>.andThen (ErasesStep.field (.read _))
    |>.andThen (ErasesStep.field .stringW) : ErasesStep _ _) t
theorem AlterConfigsResourceResponse33.spends (version : Int16) (t : AlterConfigsResourceResponse33) : Spends (AlterConfigsResourceResponse33.decodeW version t) 10 1 :=
  (((SpendsStep.field .int16)
    |>.andThen (SpendsStep.field .string)
    |>.andThen (SpendsStep.field .int8)
    |>.andThen (SpendsStep.field .string) : SpendsStep _ _) t).mono (by decide) (by decide)
theorem AlterConfigsResourceResponse33.spends0 (version : Int16) (t : AlterConfigsResourceResponse33) : Spends (AlterConfigsResourceResponse33.decodeW version t) 0 1 :=
  (AlterConfigsResourceResponse33.spends version t).mono (Nat.zero_le _) (Nat.le_refl _)

/-- message/messages.gen.go:8979-8999 `AlterConfigsResponse.Decode`, with the steps it takes -/
def AlterConfigsResponse.decodeW (version : Int16) : AlterConfigsResponse → ADec AlterConfigsResponse :=
    ADec.field WDec.int32 (fun t x => { t with ThrottleTimeMs := x }) ;>>
    WDec.fieldStructs (AlterConfigsResourceResponse33.decodeW version {}) (·.Responses) (fun t x => { t with Responses := x })
theorem AlterConfigsResponse.erasesW (version : Int16) (t : AlterConfigsResponse) : Erases (AlterConfigsResponse.decodeW version t) (AlterConfigsResponse.decode version t) :=
  ((ErasesStep.field (.read _))
    |>.andThen (ErasesStep.structsW (AlterConfigsResourceResponse33.erasesW version {})) : ErasesStep _ _) t
theorem AlterConfigsResponse.spends (version : Int16) (t : AlterConfigsResponse) : Spends (AlterConfigsResponse.decodeW version t) 14 1 :=
  (((SpendsStep.field .int32)
    |>.andThen (SpendsStep.structs ((AlterConfigsResourceResponse33.spends version {}).mono (by decide) (Nat.le_refl _))) : SpendsStep _ _) t).mono (by decide) (by decide)
theorem AlterConfigsResponse.spends0 (version : Int16) (t : AlterConfigsResponse) : Spends (AlterConfigsResponse.decodeW version t) 0 1 :=
  (AlterConfigsResponse.spends version t).mono (Nat.zero_le _) (Nat.le_refl _)

/-- The structures of the AlterConfigs messages. -/
def workAlterConfigs : List (Σ M : MsgType, Int16 → M.T → ADec M.T) :=
  [⟨AlterConfigsRequest.type, AlterConfigsRequest.decodeW⟩,
   ⟨AlterConfigsResource33.type, AlterConfigsResource33.decodeW⟩,
   ⟨AlterableConfig33.type, AlterableConfig33.decodeW⟩,
   ⟨AlterConfigsResponse.type, AlterConfigsResponse.decodeW⟩,
   ⟨AlterConfigsResourceResponse33.type, AlterConfigsResourceResponse33.decodeW⟩]
theorem workAlterConfigs_erases : ∀ p ∈ workAlterConfigs, ∀ v t, Erases (p.2 v t) (p.1.decode v t) := by
  unfold workAlterConfigs
  simp only [List.forall_mem_cons]
  exact ⟨AlterConfigsRequest.erasesW, AlterConfigsResource33.erasesW, AlterableConfig33.erasesW, AlterConfigsResponse.erasesW, AlterConfigsResourceResponse33.erasesW, fun _ h => absurd h (by simp)⟩
theorem workAlterConfigs_spends : ∀ p ∈ workAlterConfigs, ∀ v t, Spends (p.2 v t) 0 1 := by
  unfold workAlterConfigs
  simp only [List.forall_mem_cons]
  exact ⟨AlterConfigsRequest.spends0, AlterConfigsResource33.spends0, AlterableConfig33.spends0, AlterConfigsResponse.spends0, AlterConfigsResourceResponse33.spends0, fun _ h => absurd h (by simp)⟩

end Kafka.Msg
