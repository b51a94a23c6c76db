import Verif.Message.Gate
import Verif.Gen.Spec.DeleteTopics
/-!
Generated by tools/gen_messages.py: the version-dependent fields of the DeleteTopics messages.
-/
set_option linter.unusedSimpArgs false
namespace Kafka.Msg

/-- `t.ThrottleTimeMs = x` -/
def DeleteTopicsResponse_with_ThrottleTimeMs (t : DeleteTopicsResponse) (x : Int32) : DeleteTopicsResponse := { t with ThrottleTimeMs := x }
/-- `DeleteTopicsResponse.ThrottleTimeMs` -/
def DeleteTopicsResponse.gateThrottleTimeMs : Gate :=
  { M := DeleteTopicsResponse.type, L := DeleteTopicsResponse.layout, field := "ThrottleTimeMs", α := Int32, present := fun v => v ≥ 1,
    get := fun t => DeleteTopicsResponse.ThrottleTimeMs t, set := fun t x => DeleteTopicsResponse_with_ThrottleTimeMs t x }
theorem DeleteTopicsResponse.gateThrottleTimeMs_holds : DeleteTopicsResponse.gateThrottleTimeMs.Holds where
  get_set _ _ := rfl
  encode v h t x := by
    change DeleteTopicsResponse.encode v (DeleteTopicsResponse_with_ThrottleTimeMs t x) = DeleteTopicsResponse.encode v t
    change ¬(v ≥ 1) at h
    simp only [DeleteTopicsResponse.encode, DeleteTopicsResponse_with_ThrottleTimeMs, onlyIf_neg h]
  size v h t x := by
    change DeleteTopicsResponse.size v (DeleteTopicsResponse_with_ThrottleTimeMs t x) = DeleteTopicsResponse.size v t
    change ¬(v ≥ 1) at h
    simp only [DeleteTopicsResponse.size, DeleteTopicsResponse_with_ThrottleTimeMs, onlyIf_neg h]
  decode v h := by
    change ¬(v ≥ 1) at h
    refine (?_ : Keeps (fun t : DeleteTopicsResponse => t.ThrottleTimeMs) (DeleteTopicsResponse.decode v))
    unfold DeleteTopicsResponse.decode
    repeat' first
      | exact Keeps.absent h
      | apply Keeps.andThen
      | exact Keeps.field fun _ _ => rfl
      | exact Keeps.fieldStructs fun _ _ => rfl
      | apply Keeps.onlyIf
  carried v h t t0 t1 := by
    change (DeleteTopicsResponse.seen v t t0).ThrottleTimeMs = (DeleteTopicsResponse.seen v t t1).ThrottleTimeMs
    change v ≥ 1 at h
    simp only [DeleteTopicsResponse.seen, if_pos h]

/-- The version-dependent fields of the DeleteTopics messages. -/
def gatesDeleteTopics : List Gate :=
  [DeleteTopicsResponse.gateThrottleTimeMs]

theorem gatesDeleteTopics_hold : ∀ g ∈ gatesDeleteTopics, g.Holds := by
  unfold gatesDeleteTopics
  simp only [List.forall_mem_cons]
  exact ⟨DeleteTopicsResponse.gateThrottleTimeMs_holds,
    fun _ h => absurd h (by simp)⟩

end Kafka.Msg
