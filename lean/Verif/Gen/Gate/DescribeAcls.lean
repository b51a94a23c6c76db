import Verif.Message.Gate
import Verif.Gen.Spec.DescribeAcls
/-!
Generated by tools/gen_messages.py: the version-dependent fields of the DescribeAcls messages.
-/
set_option linter.unusedSimpArgs false
namespace Kafka.Msg

/-- `t.ResourcePatternType = x` -/
def DescribeAclsRequest_with_ResourcePatternType (t : DescribeAclsRequest) (x : Int8) : DescribeAclsRequest := { t with ResourcePatternType := x }
/-- `DescribeAclsRequest.ResourcePatternType` -/
def DescribeAclsRequest.gateResourcePatternType : Gate :=
  { M := DescribeAclsRequest.type, L := DescribeAclsRequest.layout, field := "ResourcePatternType", α := Int8, present := fun v => v ≥ 1,
    get := fun t => DescribeAclsRequest.ResourcePatternType t, set := fun t x => DescribeAclsRequest_with_ResourcePatternType t x }
theorem DescribeAclsRequest.gateResourcePatternType_holds : DescribeAclsRequest.gateResourcePatternType.Holds where
  get_set _ _ := rfl
  encode v h t x := by
    change DescribeAclsRequest.encode v (DescribeAclsRequest_with_ResourcePatternType t x) = DescribeAclsRequest.encode v t
    change ¬(v ≥ 1) at h
    simp only [DescribeAclsRequest.encode, DescribeAclsRequest_with_ResourcePatternType, onlyIf_neg h]
  size v h t x := by
    change DescribeAclsRequest.size v (DescribeAclsRequest_with_ResourcePatternType t x) = DescribeAclsRequest.size v t
    change ¬(v ≥ 1) at h
    simp only [DescribeAclsRequest.size, DescribeAclsRequest_with_ResourcePatternType, onlyIf_neg h]
  decode v h := by
    change ¬(v ≥ 1) at h
    refine (?_ : Keeps (fun t : DescribeAclsRequest => t.ResourcePatternType) (DescribeAclsRequest.decode v))
    unfold DescribeAclsRequest.decode
    repeat' first
      | exact Keeps.absent h
      | apply Keeps.andThen
      | exact Keeps.field fun _ _ => rfl
      | exact Keeps.fieldStructs fun _ _ => rfl
      | apply Keeps.onlyIf
  carried v h t t0 t1 := by
    change (DescribeAclsRequest.seen v t t0).ResourcePatternType = (DescribeAclsRequest.seen v t t1).ResourcePatternType
    change v ≥ 1 at h
    simp only [DescribeAclsRequest.seen, if_pos h]

/-- `t.PatternType = x` -/
def DescribeAclsResource29_with_PatternType (t : DescribeAclsResource29) (x : Int8) : DescribeAclsResource29 := { t with PatternType := x }
/-- `DescribeAclsResource29.PatternType` -/
def DescribeAclsResource29.gatePatternType : Gate :=
  { M := DescribeAclsResource29.type, L := DescribeAclsResource29.layout, field := "PatternType", α := Int8, present := fun v => v ≥ 1,
    get := fun t => DescribeAclsResource29.PatternType t, set := fun t x => DescribeAclsResource29_with_PatternType t x }
theorem DescribeAclsResource29.gatePatternType_holds : DescribeAclsResource29.gatePatternType.Holds where
  get_set _ _ := rfl
  encode v h t x := by
    change DescribeAclsResource29.encode v (DescribeAclsResource29_with_PatternType t x) = DescribeAclsResource29.encode v t
    change ¬(v ≥ 1) at h
    simp only [DescribeAclsResource29.encode, DescribeAclsResource29_with_PatternType, onlyIf_neg h]
  size v h t x := by
    change DescribeAclsResource29.size v (DescribeAclsResource29_with_PatternType t x) = DescribeAclsResource29.size v t
    change ¬(v ≥ 1) at h
    simp only [DescribeAclsResource29.size, DescribeAclsResource29_with_PatternType, onlyIf_neg h]
  decode v h := by
    change ¬(v ≥ 1) at h
    refine (?_ : Keeps (fun t : DescribeAclsResource29 => t.PatternType) (DescribeAclsResource29.decode v))
    unfold DescribeAclsResource29.decode
    repeat' first
      | exact Keeps.absent h
      | apply Keeps.andThen
      | exact Keeps.field fun _ _ => rfl
      | exact Keeps.fieldStructs fun _ _ => rfl
      | apply Keeps.onlyIf
  carried v h t t0 t1 := by
    change (DescribeAclsResource29.seen v t t0).PatternType = (DescribeAclsResource29.seen v t t1).PatternType
    change v ≥ 1 at h
    simp only [DescribeAclsResource29.seen, if_pos h]

/-- The version-dependent fields of the DescribeAcls messages. -/
def gatesDescribeAcls : List Gate :=
  [DescribeAclsRequest.gateResourcePatternType,
   DescribeAclsResource29.gatePatternType]

theorem gatesDescribeAcls_hold : ∀ g ∈ gatesDescribeAcls, g.Holds := by
  unfold gatesDescribeAcls
  simp only [List.forall_mem_cons]
  exact ⟨DescribeAclsRequest.gateResourcePatternType_holds,
    DescribeAclsResource29.gatePatternType_holds,
    fun _ h => absurd h (by simp)⟩

end Kafka.Msg
