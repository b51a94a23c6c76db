import Verif.Message.Gate
import Verif.Gen.Spec.DescribeConfigs
/-!
Generated by tools/gen_messages.py: the version-dependent fields of the DescribeConfigs messages.
-/
set_option linter.unusedSimpArgs false
namespace Kafka.Msg

/-- `t.IncludeSynoyms = x` -/
def DescribeConfigsRequest_with_IncludeSynoyms (t : DescribeConfigsRequest) (x : Bool) : DescribeConfigsRequest := { t with IncludeSynoyms := x }
/-- `DescribeConfigsRequest.IncludeSynoyms` -/
def DescribeConfigsRequest.gateIncludeSynoyms : Gate :=
  { M := DescribeConfigsRequest.type, L := DescribeConfigsRequest.layout, field := "IncludeSynoyms", α := Bool, present := fun v => v ≥ 1,
    get := fun t => DescribeConfigsRequest.IncludeSynoyms t, set := fun t x => DescribeConfigsRequest_with_IncludeSynoyms t x }
theorem DescribeConfigsRequest.gateIncludeSynoyms_holds : DescribeConfigsRequest.gateIncludeSynoyms.Holds where
  get_set _ _ := rfl
  encode v h t x := by
    change DescribeConfigsRequest.encode v (DescribeConfigsRequest_with_IncludeSynoyms t x) = DescribeConfigsRequest.encode v t
    change ¬(v ≥ 1) at h
    simp only [DescribeConfigsRequest.encode, DescribeConfigsRequest_with_IncludeSynoyms, onlyIf_neg h]
  size v h t x := by
    change DescribeConfigsRequest.size v (DescribeConfigsRequest_with_IncludeSynoyms t x) = DescribeConfigsRequest.size v t
    change ¬(v ≥ 1) at h
    simp only [DescribeConfigsRequest.size, DescribeConfigsRequest_with_IncludeSynoyms, onlyIf_neg h]
  decode v h := by
    change ¬(v ≥ 1) at h
    refine (?_ : Keeps (fun t : DescribeConfigsRequest => t.IncludeSynoyms) (DescribeConfigsRequest.decode v))
    unfold DescribeConfigsRequest.decode
    repeat' first
      | exact Keeps.absent h
      | apply Keeps.andThen
      | exact Keeps.field fun _ _ => rfl
      | exact Keeps.fieldStructs fun _ _ => rfl
      | apply Keeps.onlyIf
  carried v h t t0 t1 := by
    change (DescribeConfigsRequest.seen v t t0).IncludeSynoyms = (DescribeConfigsRequest.seen v t t1).IncludeSynoyms
    change v ≥ 1 at h
    simp only [DescribeConfigsRequest.seen, if_pos h]

/-- `t.IsDefault = x` -/
def DescribeConfigsResourceResult32_with_IsDefault (t : DescribeConfigsResourceResult32) (x : Bool) : DescribeConfigsResourceResult32 := { t with IsDefault := x }
/-- `DescribeConfigsResourceResult32.IsDefault` -/
def DescribeConfigsResourceResult32.gateIsDefault : Gate :=
  { M := DescribeConfigsResourceResult32.type, L := DescribeConfigsResourceResult32.layout, field := "IsDefault", α := Bool, present := fun v => v ≥ 0 ∧ v ≤ 0,
    get := fun t => DescribeConfigsResourceResult32.IsDefault t, set := fun t x => DescribeConfigsResourceResult32_with_IsDefault t x }
theorem DescribeConfigsResourceResult32.gateIsDefault_holds : DescribeConfigsResourceResult32.gateIsDefault.Holds where
  get_set _ _ := rfl
  encode v h t x := by
    change DescribeConfigsResourceResult32.encode v (DescribeConfigsResourceResult32_with_IsDefault t x) = DescribeConfigsResourceResult32.encode v t
    change ¬(v ≥ 0 ∧ v ≤ 0) at h
    simp only [DescribeConfigsResourceResult32.encode, DescribeConfigsResourceResult32_with_IsDefault, onlyIf_neg h]
  size v h t x := by
    change DescribeConfigsResourceResult32.size v (DescribeConfigsResourceResult32_with_IsDefault t x) = DescribeConfigsResourceResult32.size v t
    change ¬(v ≥ 0 ∧ v ≤ 0) at h
    simp only [DescribeConfigsResourceResult32.size, DescribeConfigsResourceResult32_with_IsDefault, onlyIf_neg h]
  decode v h := by
    change ¬(v ≥ 0 ∧ v ≤ 0) at h
    refine (?_ : Keeps (fun t : DescribeConfigsResourceResult32 => t.IsDefault) (DescribeConfigsResourceResult32.decode v))
    unfold DescribeConfigsResourceResult32.decode
    repeat' first
      | exact Keeps.absent h
      | apply Keeps.andThen
      | exact Keeps.field fun _ _ => rfl
      | exact Keeps.fieldStructs fun _ _ => rfl
      | apply Keeps.onlyIf
  carried v h t t0 t1 := by
    change (DescribeConfigsResourceResult32.seen v t t0).IsDefault = (DescribeConfigsResourceResult32.seen v t t1).IsDefault
    change v ≥ 0 ∧ v ≤ 0 at h
    simp only [DescribeConfigsResourceResult32.seen, if_pos h]

/-- `t.ConfigSource = x` -/
def DescribeConfigsResourceResult32_with_ConfigSource (t : DescribeConfigsResourceResult32) (x : Int8) : DescribeConfigsResourceResult32 := { t with ConfigSource := x }
/-- `DescribeConfigsResourceResult32.ConfigSource` -/
def DescribeConfigsResourceResult32.gateConfigSource : Gate :=
  { M := DescribeConfigsResourceResult32.type, L := DescribeConfigsResourceResult32.layout, field := "ConfigSource", α := Int8, present := fun v => v ≥ 1,
    get := fun t => DescribeConfigsResourceResult32.ConfigSource t, set := fun t x => DescribeConfigsResourceResult32_with_ConfigSource t x }
theorem DescribeConfigsResourceResult32.gateConfigSource_holds : DescribeConfigsResourceResult32.gateConfigSource.Holds where
  get_set _ _ := rfl
  encode v h t x := by
    change DescribeConfigsResourceResult32.encode v (DescribeConfigsResourceResult32_with_ConfigSource t x) = DescribeConfigsResourceResult32.encode v t
    change ¬(v ≥ 1) at h
    simp only [DescribeConfigsResourceResult32.encode, DescribeConfigsResourceResult32_with_ConfigSource, onlyIf_neg h]
  size v h t x := by
    change DescribeConfigsResourceResult32.size v (DescribeConfigsResourceResult32_with_ConfigSource t x) = DescribeConfigsResourceResult32.size v t
    change ¬(v ≥ 1) at h
    simp only [DescribeConfigsResourceResult32.size, DescribeConfigsResourceResult32_with_ConfigSource, onlyIf_neg h]
  decode v h := by
    change ¬(v ≥ 1) at h
    refine (?_ : Keeps (fun t : DescribeConfigsResourceResult32 => t.ConfigSource) (DescribeConfigsResourceResult32.decode v))
    unfold DescribeConfigsResourceResult32.decode
    repeat' first
      | exact Keeps.absent h
      | apply Keeps.andThen
      | exact Keeps.field fun _ _ => rfl
      | exact Keeps.fieldStructs fun _ _ => rfl
      | apply Keeps.onlyIf
  carried v h t t0 t1 := by
    change (DescribeConfigsResourceResult32.seen v t t0).ConfigSource = (DescribeConfigsResourceResult32.seen v t t1).ConfigSource
    change v ≥ 1 at h
    simp only [DescribeConfigsResourceResult32.seen, if_pos h]

/-- `t.Synonyms = x` -/
def DescribeConfigsResourceResult32_with_Synonyms (t : DescribeConfigsResourceResult32) (x : Slice DescribeConfigsSynonym32) : DescribeConfigsResourceResult32 := { t with Synonyms := x }
/-- `DescribeConfigsResourceResult32.Synonyms` -/
def DescribeConfigsResourceResult32.gateSynonyms : Gate :=
  { M := DescribeConfigsResourceResult32.type, L := DescribeConfigsResourceResult32.layout, field := "Synonyms", α := Slice DescribeConfigsSynonym32, present := fun v => v ≥ 1,
    get := fun t => DescribeConfigsResourceResult32.Synonyms t, set := fun t x => DescribeConfigsResourceResult32_with_Synonyms t x }
theorem DescribeConfigsResourceResult32.gateSynonyms_holds : DescribeConfigsResourceResult32.gateSynonyms.Holds where
  get_set _ _ := rfl
  encode v h t x := by
    change DescribeConfigsResourceResult32.encode v (DescribeConfigsResourceResult32_with_Synonyms t x) = DescribeConfigsResourceResult32.encode v t
    change ¬(v ≥ 1) at h
    simp only [DescribeConfigsResourceResult32.encode, DescribeConfigsResourceResult32_with_Synonyms, onlyIf_neg h]
  size v h t x := by
    change DescribeConfigsResourceResult32.size v (DescribeConfigsResourceResult32_with_Synonyms t x) = DescribeConfigsResourceResult32.size v t
    change ¬(v ≥ 1) at h
    simp only [DescribeConfigsResourceResult32.size, DescribeConfigsResourceResult32_with_Synonyms, onlyIf_neg h]
  decode v h := by
    change ¬(v ≥ 1) at h
    refine (?_ : Keeps (fun t : DescribeConfigsResourceResult32 => t.Synonyms) (DescribeConfigsResourceResult32.decode v))
    unfold DescribeConfigsResourceResult32.decode
    repeat' first
      | exact Keeps.absent h
      | apply Keeps.andThen
      | exact Keeps.field fun _ _ => rfl
      | exact Keeps.fieldStructs fun _ _ => rfl
      | apply Keeps.onlyIf
  carried v h t t0 t1 := by
    change (DescribeConfigsResourceResult32.seen v t t0).Synonyms = (DescribeConfigsResourceResult32.seen v t t1).Synonyms
    change v ≥ 1 at h
    simp only [DescribeConfigsResourceResult32.seen, if_pos h]

/-- `t.Name = x` -/
def DescribeConfigsSynonym32_with_Name (t : DescribeConfigsSynonym32) (x : GoString) : DescribeConfigsSynonym32 := { t with Name := x }
/-- `DescribeConfigsSynonym32.Name` -/
def DescribeConfigsSynonym32.gateName : Gate :=
  { M := DescribeConfigsSynonym32.type, L := DescribeConfigsSynonym32.layout, field := "Name", α := GoString, present := fun v => v ≥ 1,
    get := fun t => DescribeConfigsSynonym32.Name t, set := fun t x => DescribeConfigsSynonym32_with_Name t x }
theorem DescribeConfigsSynonym32.gateName_holds : DescribeConfigsSynonym32.gateName.Holds where
  get_set _ _ := rfl
  encode v h t x := by
    change DescribeConfigsSynonym32.encode v (DescribeConfigsSynonym32_with_Name t x) = DescribeConfigsSynonym32.encode v t
    change ¬(v ≥ 1) at h
    simp only [DescribeConfigsSynonym32.encode, DescribeConfigsSynonym32_with_Name, onlyIf_neg h]
  size v h t x := by
    change DescribeConfigsSynonym32.size v (DescribeConfigsSynonym32_with_Name t x) = DescribeConfigsSynonym32.size v t
    change ¬(v ≥ 1) at h
    simp only [DescribeConfigsSynonym32.size, DescribeConfigsSynonym32_with_Name, onlyIf_neg h]
  decode v h := by
    change ¬(v ≥ 1) at h
    refine (?_ : Keeps (fun t : DescribeConfigsSynonym32 => t.Name) (DescribeConfigsSynonym32.decode v))
    unfold DescribeConfigsSynonym32.decode
    repeat' first
      | exact Keeps.absent h
      | apply Keeps.andThen
      | exact Keeps.field fun _ _ => rfl
      | exact Keeps.fieldStructs fun _ _ => rfl
      | apply Keeps.onlyIf
  carried v h t t0 t1 := by
    change (DescribeConfigsSynonym32.seen v t t0).Name = (DescribeConfigsSynonym32.seen v t t1).Name
    change v ≥ 1 at h
    simp only [DescribeConfigsSynonym32.seen, if_pos h]

/-- `t.Value = x` -/
def DescribeConfigsSynonym32_with_Value (t : DescribeConfigsSynonym32) (x : GoString) : DescribeConfigsSynonym32 := { t with Value := x }
/-- `DescribeConfigsSynonym32.Value` -/
def DescribeConfigsSynonym32.gateValue : Gate :=
  { M := DescribeConfigsSynonym32.type, L := DescribeConfigsSynonym32.layout, field := "Value", α := GoString, present := fun v => v ≥ 1,
    get := fun t => DescribeConfigsSynonym32.Value t, set := fun t x => DescribeConfigsSynonym32_with_Value t x }
theorem DescribeConfigsSynonym32.gateValue_holds : DescribeConfigsSynonym32.gateValue.Holds where
  get_set _ _ := rfl
  encode v h t x := by
    change DescribeConfigsSynonym32.encode v (DescribeConfigsSynonym32_with_Value t x) = DescribeConfigsSynonym32.encode v t
    change ¬(v ≥ 1) at h
    simp only [DescribeConfigsSynonym32.encode, DescribeConfigsSynonym32_with_Value, onlyIf_neg h]
  size v h t x := by
    change DescribeConfigsSynonym32.size v (DescribeConfigsSynonym32_with_Value t x) = DescribeConfigsSynonym32.size v t
    change ¬(v ≥ 1) at h
    simp only [DescribeConfigsSynonym32.size, DescribeConfigsSynonym32_with_Value, onlyIf_neg h]
  decode v h := by
    change ¬(v ≥ 1) at h
    refine (?_ : Keeps (fun t : DescribeConfigsSynonym32 => t.Value) (DescribeConfigsSynonym32.decode v))
    unfold DescribeConfigsSynonym32.decode
    repeat' first
      | exact Keeps.absent h
      | apply Keeps.andThen
      | exact Keeps.field fun _ _ => rfl
      | exact Keeps.fieldStructs fun _ _ => rfl
      | apply Keeps.onlyIf
  carried v h t t0 t1 := by
    change (DescribeConfigsSynonym32.seen v t t0).Value = (DescribeConfigsSynonym32.seen v t t1).Value
    change v ≥ 1 at h
    simp only [DescribeConfigsSynonym32.seen, if_pos h]

/-- `t.Source = x` -/
def DescribeConfigsSynonym32_with_Source (t : DescribeConfigsSynonym32) (x : Int8) : DescribeConfigsSynonym32 := { t with Source := x }
/-- `DescribeConfigsSynonym32.Source` -/
def DescribeConfigsSynonym32.gateSource : Gate :=
  { M := DescribeConfigsSynonym32.type, L := DescribeConfigsSynonym32.layout, field := "Source", α := Int8, present := fun v => v ≥ 1,
    get := fun t => DescribeConfigsSynonym32.Source t, set := fun t x => DescribeConfigsSynonym32_with_Source t x }
theorem DescribeConfigsSynonym32.gateSource_holds : DescribeConfigsSynonym32.gateSource.Holds where
  get_set _ _ := rfl
  encode v h t x := by
    change DescribeConfigsSynonym32.encode v (DescribeConfigsSynonym32_with_Source t x) = DescribeConfigsSynonym32.encode v t
    change ¬(v ≥ 1) at h
    simp only [DescribeConfigsSynonym32.encode, DescribeConfigsSynonym32_with_Source, onlyIf_neg h]
  size v h t x := by
    change DescribeConfigsSynonym32.size v (DescribeConfigsSynonym32_with_Source t x) = DescribeConfigsSynonym32.size v t
    change ¬(v ≥ 1) at h
    simp only [DescribeConfigsSynonym32.size, DescribeConfigsSynonym32_with_Source, onlyIf_neg h]
  decode v h := by
    change ¬(v ≥ 1) at h
    refine (?_ : Keeps (fun t : DescribeConfigsSynonym32 => t.Source) (DescribeConfigsSynonym32.decode v))
    unfold DescribeConfigsSynonym32.decode
    repeat' first
      | exact Keeps.absent h
      | apply Keeps.andThen
      | exact Keeps.field fun _ _ => rfl
      | exact Keeps.fieldStructs fun _ _ => rfl
      | apply Keeps.onlyIf
  carried v h t t0 t1 := by
    change (DescribeConfigsSynonym32.seen v t t0).Source = (DescribeConfigsSynonym32.seen v t t1).Source
    change v ≥ 1 at h
    simp only [DescribeConfigsSynonym32.seen, if_pos h]

/-- The version-dependent fields of the DescribeConfigs messages. -/
def gatesDescribeConfigs : List Gate :=
  [DescribeConfigsRequest.gateIncludeSynoyms,
   DescribeConfigsResourceResult32.gateIsDefault,
   DescribeConfigsResourceResult32.gateConfigSource,
   DescribeConfigsResourceResult32.gateSynonyms,
   DescribeConfigsSynonym32.gateName,
   DescribeConfigsSynonym32.gateValue,
   DescribeConfigsSynonym32.gateSource]

theorem gatesDescribeConfigs_hold : ∀ g ∈ gatesDescribeConfigs, g.Holds := by
  unfold gatesDescribeConfigs
  simp only [List.forall_mem_cons]
  exact ⟨DescribeConfigsRequest.gateIncludeSynoyms_holds,
    DescribeConfigsResourceResult32.gateIsDefault_holds,
    DescribeConfigsResourceResult32.gateConfigSource_holds,
    DescribeConfigsResourceResult32.gateSynonyms_holds,
    DescribeConfigsSynonym32.gateName_holds,
    DescribeConfigsSynonym32.gateValue_holds,
    DescribeConfigsSynonym32.gateSource_holds,
    fun _ h => absurd h (by simp)⟩

end Kafka.Msg
