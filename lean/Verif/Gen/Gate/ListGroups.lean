import Verif.Message.Gate
import Verif.Gen.Spec.ListGroups
/-!
Generated by tools/gen_messages.py: the version-dependent fields of the ListGroups messages.
-/
set_option linter.unusedSimpArgs false
namespace Kafka.Msg

/-- `t.ThrottleTimeMs = x` -/
def ListGroupsResponse_with_ThrottleTimeMs (t : ListGroupsResponse) (x : Int32) : ListGroupsResponse := { t with ThrottleTimeMs := x }
/-- `ListGroupsResponse.ThrottleTimeMs` -/
def ListGroupsResponse.gateThrottleTimeMs : Gate :=
  { M := ListGroupsResponse.type, L := ListGroupsResponse.layout, field := "ThrottleTimeMs", α := Int32, present := fun v => v ≥ 1,
    get := fun t => ListGroupsResponse.ThrottleTimeMs t, set := fun t x => ListGroupsResponse_with_ThrottleTimeMs t x }
theorem ListGroupsResponse.gateThrottleTimeMs_holds : ListGroupsResponse.gateThrottleTimeMs.Holds where
  get_set _ _ := rfl
  encode v h t x := by
    change ListGroupsResponse.encode v (ListGroupsResponse_with_ThrottleTimeMs t x) = ListGroupsResponse.encode v t
    change ¬(v ≥ 1) at h
    simp only [ListGroupsResponse.encode, ListGroupsResponse_with_ThrottleTimeMs, onlyIf_neg h]
  size v h t x := by
    change ListGroupsResponse.size v (ListGroupsResponse_with_ThrottleTimeMs t x) = ListGroupsResponse.size v t
    change ¬(v ≥ 1) at h
    simp only [ListGroupsResponse.size, ListGroupsResponse_with_ThrottleTimeMs, onlyIf_neg h]
  decode v h := by
    change ¬(v ≥ 1) at h
    refine (?_ : Keeps (fun t : ListGroupsResponse => t.ThrottleTimeMs) (ListGroupsResponse.decode v))
    unfold ListGroupsResponse.decode
    repeat' first
      | exact Keeps.absent h
      | apply Keeps.andThen
      | exact Keeps.field fun _ _ => rfl
      | exact Keeps.fieldStructs fun _ _ => rfl
      | apply Keeps.onlyIf
  carried v h t t0 t1 := by
    change (ListGroupsResponse.seen v t t0).ThrottleTimeMs = (ListGroupsResponse.seen v t t1).ThrottleTimeMs
    change v ≥ 1 at h
    simp only [ListGroupsResponse.seen, if_pos h]

/-- The version-dependent fields of the ListGroups messages. -/
def gatesListGroups : List Gate :=
  [ListGroupsResponse.gateThrottleTimeMs]

theorem gatesListGroups_hold : ∀ g ∈ gatesListGroups, g.Holds := by
  unfold gatesListGroups
  simp only [List.forall_mem_cons]
  exact ⟨ListGroupsResponse.gateThrottleTimeMs_holds,
    fun _ h => absurd h (by simp)⟩

end Kafka.Msg
