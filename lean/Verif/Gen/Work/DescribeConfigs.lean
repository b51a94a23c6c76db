import Verif.Message.Work
import Verif.Gen.Model.DescribeConfigs
/-!
Generated by tools/gen_messages.py: steps taken by decoding the DescribeConfigs messages.
-/
namespace Kafka.Msg

/-- message/messages.gen.go:8509-8524 `DescribeConfigsResource32.Decode`, with the steps it takes -/
def DescribeConfigsResource32.decodeW (_version : Int16) : DescribeConfigsResource32 → ADec DescribeConfigsResource32 :=
    ADec.field WDec.int8 (fun t x => { t with ResourceType := x }) ;>>
    ADec.field WDec.string (fun t x => { t with ResourceName := x }) ;>>
    ADec.field WDec.stringArray (fun t x => { t with ConfigurationKeys := x })
theorem DescribeConfigsResource32.erasesW (version : Int16) (t : DescribeConfigsResource32) : Erases (DescribeConfigsResource32.decodeW version t) (DescribeConfigsResource32.decode version t) :=
  ((ErasesStep.field (.read _))
    |>.andThen (ErasesStep.field .stringW)
    |>.andThen (ErasesStep.field (.arrayOfW .stringW)) : ErasesStep _ _) t
theorem DescribeConfigsResource32.spends (version : Int16) (t : DescribeConfigsResource32) : Spends (DescribeConfigsResource32.decodeW version t) 11 1 :=
  (((SpendsStep.field .int8)
    |>.andThen (SpendsStep.field .string)
    |>.andThen (SpendsStep.field .stringArray) : SpendsStep _ _) t).mono (by decide) (by decide)
theorem DescribeConfigsResource32.spends0 (version : Int16) (t : DescribeConfigsResource32) : Spends (DescribeConfigsResource32.decodeW version t) 0 1 :=
  (DescribeConfigsResource32.spends version t).mono (Nat.zero_le _) (Nat.le_refl _)

/-- message/messages.gen.go:8462-8484 `DescribeConfigsRequest.Decode`, with the steps it takes -/
def DescribeConfigsRequest.decodeW (version : Int16) : DescribeConfigsRequest → ADec DescribeConfigsRequest :=
    WDec.fieldStructs (DescribeConfigsResource32.decodeW version {}) (·.Resources) (fun t x => { t with Resources := x }) ;>>
    ADec.onlyIf (version ≥ 1) (ADec.field WDec.bool (fun t x => { t with IncludeSynoyms := x }))
theorem DescribeConfigsRequest.erasesW (version : Int16) (t : DescribeConfigsRequest) : Erases (DescribeConfigsRequest.decodeW version t) (DescribeConfigsRequest.decode version t) :=
  ((ErasesStep.structsW (DescribeConfigsResource32.erasesW version {}))
    |>.andThen (ErasesStep.onlyIf (ErasesStep.field (.read _))) : ErasesStep _ _) t
theorem DescribeConfigsRequest.spends (version : Int16) (t : DescribeConfigsRequest) : Spends (DescribeConfigsRequest.decodeW version t) 7 1 :=
  (((SpendsStep.structs ((DescribeConfigsResource32.spends version {}).mono (by decide) (Nat.le_refl _)))
    |>.andThen (SpendsStep.onlyIf (fun _ => SpendsStep.field .bool)) : SpendsStep _ _) t).mono (by decide) (by decide)
theorem DescribeConfigsRequest.spends0 (version : Int16) (t : DescribeConfigsRequest) : Spends (DescribeConfigsRequest.decodeW version t) 0 1 :=
  (DescribeConfigsRequest.spends version t).mono (Nat.zero_le _) (Nat.le_refl _)

/-- message/messages.gen.go:8786-8807 `DescribeConfigsSynonym32.Decode`, with the steps it takes -/
def DescribeConfigsSynonym32.decodeW (version : Int16) : DescribeConfigsSynonym32 → ADec DescribeConfigsSynonym32 :=
    ADec.onlyIf (version ≥ 1) (ADec.field WDec.string (fun t x => { t with Name := x })) ;>>
    ADec.onlyIf (version ≥ 1) (ADec.field WDec.string (fun t x => { t with Value := x })) ;>>
    ADec.onlyIf (version ≥ 1) (ADec.field WDec.int8 (fun t x => { t with Source := x }))
theorem DescribeConfigsSynonym32.erasesW (version : Int16) (t : DescribeConfigsSynonym32) : Erases (DescribeConfigsSynonym32.decodeW version t) (DescribeConfigsSynonym32.decode version t) :=
  ((ErasesStep.onlyIf (ErasesStep.field .stringW))
    |>.andThen (ErasesStep.onlyIf (ErasesStep.field .stringW))
    |>.andThen (ErasesStep.onlyIf (ErasesStep.field (.read _))) : ErasesStep _ _) t
theorem DescribeConfigsSynonym32.spends (version : Int16) (t : DescribeConfigsSynonym32) (h : version ≥ 1) : Spends (DescribeConfigsSynonym32.decodeW version t) 3 1 :=
  (((SpendsStep.present h (SpendsStep.field .string))
    |>.andThen (SpendsStep.onlyIf (fun _ => SpendsStep.field .string))
    |>.andThen (SpendsStep.onlyIf (fun _ => SpendsStep.field .int8)) : SpendsStep _ _) t).mono (by decide) (by decide)
theorem DescribeConfigsSynonym32.spends0 (version : Int16) (t : DescribeConfigsSynonym32) : Spends (DescribeConfigsSynonym32.decodeW version t) 0 1 :=
  (((SpendsStep.onlyIf (fun _ => SpendsStep.field .string))
    |>.andThen (SpendsStep.onlyIf (fun _ => SpendsStep.field .string))
    |>.andThen (SpendsStep.onlyIf (fun _ => SpendsStep.field .int8)) : SpendsStep _ _) t).mono (by decide) (by decide)

/-- message/messages.gen.go:8703-8749 `DescribeConfigsResourceResult32.Decode`, with the steps it takes -/
def DescribeConfigsResourceResult32.decodeW (version : Int16) : DescribeConfigsResourceResult32 → ADec DescribeConfigsResourceResult32 :=
    ADec.field WDec.string (fun t x => { t with Name := x }) ;>>
    ADec.field WDec.string (fun t x => { t with Value := x }) ;>>
    ADec.field WDec.bool (fun t x => { t with ReadOnly := x }) ;>>
    ADec.onlyIf (version ≥ 0 ∧ version ≤ 0) (ADec.field WDec.bool (fun t x => { t with IsDefault := x })) ;>>
    ADec.onlyIf (version ≥ 1) (ADec.field WDec.int8 (fun t x => { t with ConfigSource := x })) ;>>
    ADec.field WDec.bool (fun t x => { t with IsSensitive := x }) ;>>
    ADec.onlyIf (version ≥ 1) (WDec.fieldStructs (DescribeConfigsSynonym32.decodeW version {}) (·.Synonyms) (fun t x => { t with Synonyms := x }))
theorem DescribeConfigsResourceResult32.erasesW (version : Int16) (t : DescribeConfigsResourceResult32) : Erases (DescribeConfigsResourceResult32.decodeW version t) (DescribeConfigsResourceResult32.decode version t) :=
  ((ErasesStep.field .stringW)
    |>.andThen (ErasesStep.field .stringW)
    |>.andThen (ErasesStep.field (.read _))
    |>.andThen (ErasesStep.onlyIf (ErasesStep.field (.read _)))
    |>.andThen (ErasesStep.onlyIf (ErasesStep.field (.read _)))
    |>.andThen (ErasesStep.field (.read _))
    |>.andThen (ErasesStep.onlyIf (ErasesStep.structsW (DescribeConfigsSynonym32.erasesW version {}))) : ErasesStep _ _) t
theorem DescribeConfigsResourceResult32.spends (version : Int16) (t : DescribeConfigsResourceResult32) : Spends (DescribeConfigsResourceResult32.decodeW version t) 8 1 :=
  (((SpendsStep.field .string)
    |>.andThen (SpendsStep.field .string)
    |>.andThen (SpendsStep.field .bool)
    |>.andThen (SpendsStep.onlyIf (fun _ => SpendsStep.field .bool))
    |>.andThen (SpendsStep.onlyIf (fun _ => SpendsStep.field .int8))
    |>.andThen (SpendsStep.field .bool)
    |>.andThen (SpendsStep.onlyIf (fun h => SpendsStep.structs ((DescribeConfigsSynonym32.spends version {} h).mono (by decide) (Nat.le_refl _)))) : SpendsStep _ _) t).mono (by decide) (by decide)
theorem DescribeConfigsResourceResult32.spends0 (version : Int16) (t : DescribeConfigsResourceResult32) : Spends (DescribeConfigsResourceResult32.decodeW version t) 0 1 :=
  (DescribeConfigsResourceResult32.spends version t).mono (Nat.zero_le _) (Nat.le_refl _)

/-- message/messages.gen.go:8614-8646 `DescribeConfigsResult32.Decode`, with the steps it takes -/
def DescribeConfigsResult32.decodeW (version : Int16) : DescribeConfigsResult32 → ADec DescribeConfigsResult32 :=
    ADec.field WDec.int16 (fun t x => { t with ErrorCode := x }) ;>>
    ADec.field WDec.string (fun t x => { t with ErrorMessage := x }) ;>>
    ADec.field WDec.int8 (fun t x => { t with ResourceType := x }) ;>>
    ADec.field WDec.string (fun t x => { t with ResourceName := x }) ;>>
    WDec.fieldStructs (DescribeConfigsResourceResult32.decodeW version {}) (·.Configs) (fun t x => { t with Configs := x })
theorem DescribeConfigsResult32.erasesW (version : Int16) (t : DescribeConfigsResult32) : Erases (DescribeConfigsResult32.decodeW version t) (DescribeConfigsResult32.decode version t) :=
  ((ErasesStep.field (.read _))
    |>.andThen (ErasesStep.field .stringW)
    |>.andThen (ErasesStep.field (.read _))
    |>.andThen (ErasesStep.field .stringW)
    |>.andThen (ErasesStep.structsW (DescribeConfigsResourceResult32.erasesW version {})) : ErasesStep _ _) t
theorem DescribeConfigsResult32.spends (version : Int16) (t : DescribeConfigsResult32) : Spends (DescribeConfigsResult32.decodeW version t) 17 1 :=
  (((SpendsStep.field .int16)
    |>.andThen (SpendsStep.field .string)
    |>.andThen (SpendsStep.field .int8)
    |>.andThen (SpendsStep.field .string)
    |>.andThen (SpendsStep.structs ((DescribeConfigsResourceResult32.spends version {}).mono (by decide) (Nat.le_refl _))) : SpendsStep _ _) t).mono (by decide) (by decide)
theorem DescribeConfigsResult32.spends0 (version : Int16) (t : DescribeConfigsResult32) : Spends (DescribeConfigsResult32.decodeW version t) 0 1 :=
  (DescribeConfigsResult32.spends version t).mono (Nat.zero_le _) (Nat.le_refl _)

/-- message/messages.gen.go:8555-8575 `DescribeConfigsResponse.Decode`, with the steps it takes -/
def DescribeConfigsResponse.decodeW (version : Int16) : DescribeConfigsResponse → ADec DescribeConfigsResponse :=
    ADec.field WDec.int32 (fun t x => { t with ThrottleTimeMs := x }) ;>>
    WDec.fieldStructs (DescribeConfigsResult32.decodeW version {}) (·.Results) (fun t x => { t with Results := x })
theorem DescribeConfigsResponse.erasesW (version : Int16) (t : DescribeConfigsResponse) : Erases (DescribeConfigsResponse.decodeW version t) (DescribeConfigsResponse.decode version t) :=
  ((ErasesStep.field (.read _))
    |>.andThen (ErasesStep.structsW (DescribeConfigsResult32.erasesW version {})) : ErasesStep _ _) t
theorem DescribeConfigsResponse.spends (version : Int16) (t : DescribeConfigsResponse) : Spends (DescribeConfigsResponse.decodeW version t) 14 1 :=
  (((SpendsStep.field .int32)
    |>.andThen (SpendsStep.structs ((DescribeConfigsResult32.spends version {}).mono (by decide) (Nat.le_refl _))) : SpendsStep _ _) t).mono (by decide) (by decide)
theorem DescribeConfigsResponse.spends0 (version : Int16) (t : DescribeConfigsResponse) : Spends (DescribeConfigsResponse.decodeW version t) 0 1 :=
  (DescribeConfigsResponse.spends version t).mono (Nat.zero_le _) (Nat.le_refl _)

/-- The structures of the DescribeConfigs messages. -/
def workDescribeConfigs : List (Σ M : MsgType, Int16 → M.T → ADec M.T) :=
  [⟨DescribeConfigsRequest.type, DescribeConfigsRequest.decodeW⟩,
   ⟨DescribeConfigsResource32.type, DescribeConfigsResource32.decodeW⟩,
   ⟨DescribeConfigsResponse.type, DescribeConfigsResponse.decodeW⟩,
   ⟨DescribeConfigsResult32.type, DescribeConfigsResult32.decodeW⟩,
   ⟨DescribeConfigsResourceResult32.type, DescribeConfigsResourceResult32.decodeW⟩,
   ⟨DescribeConfigsSynonym32.type, DescribeConfigsSynonym32.decodeW⟩]
theorem workDescribeConfigs_erases : ∀ p ∈ workDescribeConfigs, ∀ v t, Erases (p.2 v t) (p.1.decode v t) := by
  unfold workDescribeConfigs
  simp only [List.forall_mem_cons]
  exact ⟨DescribeConfigsRequest.erasesW, DescribeConfigsResource32.erasesW, DescribeConfigsResponse.erasesW, DescribeConfigsResult32.erasesW, DescribeConfigsResourceResult32.erasesW, DescribeConfigsSynonym32.erasesW, fun _ h => absurd h (by simp)⟩
theorem workDescribeConfigs_spends : ∀ p ∈ workDescribeConfigs, ∀ v t, Spends (p.2 v t) 0 1 := by
  unfold workDescribeConfigs
  simp only [List.forall_mem_cons]
  exact ⟨DescribeConfigsRequest.spends0, DescribeConfigsResource32.spends0, DescribeConfigsResponse.spends0, DescribeConfigsResult32.spends0, DescribeConfigsResourceResult32.spends0, DescribeConfigsSynonym32.spends0, fun _ h => absurd h (by simp)⟩

end Kafka.Msg
