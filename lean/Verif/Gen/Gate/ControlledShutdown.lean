import Verif.Message.Gate
import Verif.Gen.Spec.ControlledShutdown
/-!
Generated by tools/gen_messages.py: the version-dependent fields of the ControlledShutdown messages.
-/
set_option linter.unusedSimpArgs false
namespace Kafka.Msg

/-- `t.BrokerEpoch = x` -/
def ControlledShutdownRequest_with_BrokerEpoch (t : ControlledShutdownRequest) (x : Int64) : ControlledShutdownRequest := { t with BrokerEpoch := x }
/-- `ControlledShutdownRequest.BrokerEpoch` -/
def ControlledShutdownRequest.gateBrokerEpoch : Gate :=
  { M := ControlledShutdownRequest.type, L := ControlledShutdownRequest.layout, field := "BrokerEpoch", α := Int64, present := fun v => v ≥ 2,
    get := fun t => ControlledShutdownRequest.BrokerEpoch t, set := fun t x => ControlledShutdownRequest_with_BrokerEpoch t x }
theorem ControlledShutdownRequest.gateBrokerEpoch_holds : ControlledShutdownRequest.gateBrokerEpoch.Holds where
  get_set _ _ := rfl
  encode v h t x := by
    change ControlledShutdownRequest.encode v (ControlledShutdownRequest_with_BrokerEpoch t x) = ControlledShutdownRequest.encode v t
    change ¬(v ≥ 2) at h
    simp only [ControlledShutdownRequest.encode, ControlledShutdownRequest_with_BrokerEpoch, onlyIf_neg h]
  size v h t x := by
    change ControlledShutdownRequest.size v (ControlledShutdownRequest_with_BrokerEpoch t x) = ControlledShutdownRequest.size v t
    change ¬(v ≥ 2) at h
    simp only [ControlledShutdownRequest.size, ControlledShutdownRequest_with_BrokerEpoch, onlyIf_neg h]
  decode v h := by
    change ¬(v ≥ 2) at h
    refine (?_ : Keeps (fun t : ControlledShutdownRequest => t.BrokerEpoch) (ControlledShutdownRequest.decode v))
    unfold ControlledShutdownRequest.decode
    repeat' first
      | exact Keeps.absent h
      | apply Keeps.andThen
      | exact Keeps.field fun _ _ => rfl
      | exact Keeps.fieldStructs fun _ _ => rfl
      | apply Keeps.onlyIf
  carried v h t t0 t1 := by
    change (ControlledShutdownRequest.seen v t t0).BrokerEpoch = (ControlledShutdownRequest.seen v t t1).BrokerEpoch
    change v ≥ 2 at h
    simp only [ControlledShutdownRequest.seen, if_pos h]

/-- The version-dependent fields of the ControlledShutdown messages. -/
def gatesControlledShutdown : List Gate :=
  [ControlledShutdownRequest.gateBrokerEpoch]

theorem gatesControlledShutdown_hold : ∀ g ∈ gatesControlledShutdown, g.Holds := by
  unfold gatesControlledShutdown
  simp only [List.forall_mem_cons]
  exact ⟨ControlledShutdownRequest.gateBrokerEpoch_holds,
    fun _ h => absurd h (by simp)⟩

end Kafka.Msg
