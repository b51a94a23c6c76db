import Verif.Message.Gate
import Verif.Gen.Spec.DeleteAcls
/-!
Generated by tools/gen_messages.py: the version-dependent fields of the DeleteAcls messages.
-/
set_option linter.unusedSimpArgs false
namespace Kafka.Msg

/-- `t.PatternTypeFilter = x` -/
def DeleteAclsFilter31_with_PatternTypeFilter (t : DeleteAclsFilter31) (x : Int8) : DeleteAclsFilter31 := { t with PatternTypeFilter := x }
/-- `DeleteAclsFilter31.PatternTypeFilter` -/
def DeleteAclsFilter31.gatePatternTypeFilter : Gate :=
  { M := DeleteAclsFilter31.type, L := DeleteAclsFilter31.layout, field := "PatternTypeFilter", α := Int8, present := fun v => v ≥ 1,
    get := fun t => DeleteAclsFilter31.PatternTypeFilter t, set := fun t x => DeleteAclsFilter31_with_PatternTypeFilter t x }
theorem DeleteAclsFilter31.gatePatternTypeFilter_holds : DeleteAclsFilter31.gatePatternTypeFilter.Holds where
  get_set _ _ := rfl
  encode v h t x := by
    change DeleteAclsFilter31.encode v (DeleteAclsFilter31_with_PatternTypeFilter t x) = DeleteAclsFilter31.encode v t
    change ¬(v ≥ 1) at h
    simp only [DeleteAclsFilter31.encode, DeleteAclsFilter31_with_PatternTypeFilter, onlyIf_neg h]
  size v h t x := by
    change DeleteAclsFilter31.size v (DeleteAclsFilter31_with_PatternTypeFilter t x) = DeleteAclsFilter31.size v t
    change ¬(v ≥ 1) at h
    simp only [DeleteAclsFilter31.size, DeleteAclsFilter31_with_PatternTypeFilter, onlyIf_neg h]
  decode v h := by
    change ¬(v ≥ 1) at h
    refine (?_ : Keeps (fun t : DeleteAclsFilter31 => t.PatternTypeFilter) (DeleteAclsFilter31.decode v))
    unfold DeleteAclsFilter31.decode
    repeat' first
      | exact Keeps.absent h
      | apply Keeps.andThen
      | exact Keeps.field fun _ _ => rfl
      | exact Keeps.fieldStructs fun _ _ => rfl
      | apply Keeps.onlyIf
  carried v h t t0 t1 := by
    change (DeleteAclsFilter31.seen v t t0).PatternTypeFilter = (DeleteAclsFilter31.seen v t t1).PatternTypeFilter
    change v ≥ 1 at h
    simp only [DeleteAclsFilter31.seen, if_pos h]

/-- `t.PatternType = x` -/
def DeleteAclsMatchingAcl31_with_PatternType (t : DeleteAclsMatchingAcl31) (x : Int8) : DeleteAclsMatchingAcl31 := { t with PatternType := x }
/-- `DeleteAclsMatchingAcl31.PatternType` -/
def DeleteAclsMatchingAcl31.gatePatternType : Gate :=
  { M := DeleteAclsMatchingAcl31.type, L := DeleteAclsMatchingAcl31.layout, field := "PatternType", α := Int8, present := fun v => v ≥ 1,
    get := fun t => DeleteAclsMatchingAcl31.PatternType t, set := fun t x => DeleteAclsMatchingAcl31_with_PatternType t x }
theorem DeleteAclsMatchingAcl31.gatePatternType_holds : DeleteAclsMatchingAcl31.gatePatternType.Holds where
  get_set _ _ := rfl
  encode v h t x := by
    change DeleteAclsMatchingAcl31.encode v (DeleteAclsMatchingAcl31_with_PatternType t x) = DeleteAclsMatchingAcl31.encode v t
    change ¬(v ≥ 1) at h
    simp only [DeleteAclsMatchingAcl31.encode, DeleteAclsMatchingAcl31_with_PatternType, onlyIf_neg h]
  size v h t x := by
    change DeleteAclsMatchingAcl31.size v (DeleteAclsMatchingAcl31_with_PatternType t x) = DeleteAclsMatchingAcl31.size v t
    change ¬(v ≥ 1) at h
    simp only [DeleteAclsMatchingAcl31.size, DeleteAclsMatchingAcl31_with_PatternType, onlyIf_neg h]
  decode v h := by
    change ¬(v ≥ 1) at h
    refine (?_ : Keeps (fun t : DeleteAclsMatchingAcl31 => t.PatternType) (DeleteAclsMatchingAcl31.decode v))
    unfold DeleteAclsMatchingAcl31.decode
    repeat' first
      | exact Keeps.absent h
      | apply Keeps.andThen
      | exact Keeps.field fun _ _ => rfl
      | exact Keeps.fieldStructs fun _ _ => rfl
      | apply Keeps.onlyIf
  carried v h t t0 t1 := by
    change (DeleteAclsMatchingAcl31.seen v t t0).PatternType = (DeleteAclsMatchingAcl31.seen v t t1).PatternType
    change v ≥ 1 at h
    simp only [DeleteAclsMatchingAcl31.seen, if_pos h]

/-- The version-dependent fields of the DeleteAcls messages. -/
def gatesDeleteAcls : List Gate :=
  [DeleteAclsFilter31.gatePatternTypeFilter,
   DeleteAclsMatchingAcl31.gatePatternType]

theorem gatesDeleteAcls_hold : ∀ g ∈ gatesDeleteAcls, g.Holds := by
  unfold gatesDeleteAcls
  simp only [List.forall_mem_cons]
  exact ⟨DeleteAclsFilter31.gatePatternTypeFilter_holds,
    DeleteAclsMatchingAcl31.gatePatternType_holds,
    fun _ h => absurd h (by simp)⟩

end Kafka.Msg
