import Verif.Message.Gate
import Verif.Gen.Spec.CreateAcls
/-!
Generated by tools/gen_messages.py: the version-dependent fields of the CreateAcls messages.
-/
set_option linter.unusedSimpArgs false
namespace Kafka.Msg

/-- `t.ResourcePatternType = x` -/
def CreatableAcl30_with_ResourcePatternType (t : CreatableAcl30) (x : Int8) : CreatableAcl30 := { t with ResourcePatternType := x }
/-- `CreatableAcl30.ResourcePatternType` -/
def CreatableAcl30.gateResourcePatternType : Gate :=
  { M := CreatableAcl30.type, L := CreatableAcl30.layout, field := "ResourcePatternType", α := Int8, present := fun v => v ≥ 1,
    get := fun t => CreatableAcl30.ResourcePatternType t, set := fun t x => CreatableAcl30_with_ResourcePatternType t x }
theorem CreatableAcl30.gateResourcePatternType_holds : CreatableAcl30.gateResourcePatternType.Holds where
  get_set _ _ := rfl
  encode v h t x := by
    change CreatableAcl30.encode v (CreatableAcl30_with_ResourcePatternType t x) = CreatableAcl30.encode v t
    change ¬(v ≥ 1) at h
    simp only [CreatableAcl30.encode, CreatableAcl30_with_ResourcePatternType, onlyIf_neg h]
  size v h t x := by
    change CreatableAcl30.size v (CreatableAcl30_with_ResourcePatternType t x) = CreatableAcl30.size v t
    change ¬(v ≥ 1) at h
    simp only [CreatableAcl30.size, CreatableAcl30_with_ResourcePatternType, onlyIf_neg h]
  decode v h := by
    change ¬(v ≥ 1) at h
    refine (?_ : Keeps (fun t : CreatableAcl30 => t.ResourcePatternType) (CreatableAcl30.decode v))
    unfold CreatableAcl30.decode
    repeat' first
      | exact Keeps.absent h
      | apply Keeps.andThen
      | exact Keeps.field fun _ _ => rfl
      | exact Keeps.fieldStructs fun _ _ => rfl
      | apply Keeps.onlyIf
  carried v h t t0 t1 := by
    change (CreatableAcl30.seen v t t0).ResourcePatternType = (CreatableAcl30.seen v t t1).ResourcePatternType
    change v ≥ 1 at h
    simp only [CreatableAcl30.seen, if_pos h]

/-- The version-dependent fields of the CreateAcls messages. -/
def gatesCreateAcls : List Gate :=
  [CreatableAcl30.gateResourcePatternType]

theorem gatesCreateAcls_hold : ∀ g ∈ gatesCreateAcls, g.Holds := by
  unfold gatesCreateAcls
  simp only [List.forall_mem_cons]
  exact ⟨CreatableAcl30.gateResourcePatternType_holds,
    fun _ h => absurd h (by simp)⟩

end Kafka.Msg
