import Verif.Message.Gate
import Verif.Gen.Spec.Header
/-!
Generated by tools/gen_messages.py: the version-dependent fields of the Header messages.
-/
set_option linter.unusedSimpArgs false
namespace Kafka.Msg

/-- `t.ClientId = x` -/
def RequestHeader_with_ClientId (t : RequestHeader) (x : GoString) : RequestHeader := { t with ClientId := x }
/-- `RequestHeader.ClientId` -/
def RequestHeader.gateClientId : Gate :=
  { M := RequestHeader.type, L := RequestHeader.layout, field := "ClientId", α := GoString, present := fun v => v ≥ 1,
    get := fun t => RequestHeader.ClientId t, set := fun t x => RequestHeader_with_ClientId t x }
theorem RequestHeader.gateClientId_holds : RequestHeader.gateClientId.Holds where
  get_set _ _ := rfl
  encode v h t x := by
    change RequestHeader.encode v (RequestHeader_with_ClientId t x) = RequestHeader.encode v t
    change ¬(v ≥ 1) at h
    simp only [RequestHeader.encode, RequestHeader_with_ClientId, onlyIf_neg h]
  size v h t x := by
    change RequestHeader.size v (RequestHeader_with_ClientId t x) = RequestHeader.size v t
    change ¬(v ≥ 1) at h
    simp only [RequestHeader.size, RequestHeader_with_ClientId, onlyIf_neg h]
  decode v h := by
    change ¬(v ≥ 1) at h
    refine (?_ : Keeps (fun t : RequestHeader => t.ClientId) (RequestHeader.decode v))
    unfold RequestHeader.decode
    repeat' first
      | exact Keeps.absent h
      | apply Keeps.andThen
      | exact Keeps.field fun _ _ => rfl
      | exact Keeps.fieldStructs fun _ _ => rfl
      | apply Keeps.onlyIf
  carried v h t t0 t1 := by
    change (RequestHeader.seen v t t0).ClientId = (RequestHeader.seen v t t1).ClientId
    change v ≥ 1 at h
    simp only [RequestHeader.seen, if_pos h]

/-- The version-dependent fields of the Header messages. -/
def gatesHeader : List Gate :=
  [RequestHeader.gateClientId]

theorem gatesHeader_hold : ∀ g ∈ gatesHeader, g.Holds := by
  unfold gatesHeader
  simp only [List.forall_mem_cons]
  exact ⟨RequestHeader.gateClientId_holds,
    fun _ h => absurd h (by simp)⟩

end Kafka.Msg
