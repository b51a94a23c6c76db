import Verif.Message.Gate
import Verif.Gen.Spec.SaslAuthenticate
/-!
Generated by tools/gen_messages.py: the version-dependent fields of the SaslAuthenticate messages.
-/
set_option linter.unusedSimpArgs false
namespace Kafka.Msg

/-- `t.SessionLifetimeMs = x` -/
def SaslAuthenticateResponse_with_SessionLifetimeMs (t : SaslAuthenticateResponse) (x : Int64) : SaslAuthenticateResponse := { t with SessionLifetimeMs := x }
/-- `SaslAuthenticateResponse.SessionLifetimeMs` -/
def SaslAuthenticateResponse.gateSessionLifetimeMs : Gate :=
  { M := SaslAuthenticateResponse.type, L := SaslAuthenticateResponse.layout, field := "SessionLifetimeMs", α := Int64, present := fun v => v ≥ 1,
    get := fun t => SaslAuthenticateResponse.SessionLifetimeMs t, set := fun t x => SaslAuthenticateResponse_with_SessionLifetimeMs t x }
theorem SaslAuthenticateResponse.gateSessionLifetimeMs_holds : SaslAuthenticateResponse.gateSessionLifetimeMs.Holds where
  get_set _ _ := rfl
  encode v h t x := by
    change SaslAuthenticateResponse.encode v (SaslAuthenticateResponse_with_SessionLifetimeMs t x) = SaslAuthenticateResponse.encode v t
    change ¬(v ≥ 1) at h
    simp only [SaslAuthenticateResponse.encode, SaslAuthenticateResponse_with_SessionLifetimeMs, onlyIf_neg h]
  size v h t x := by
    change SaslAuthenticateResponse.size v (SaslAuthenticateResponse_with_SessionLifetimeMs t x) = SaslAuthenticateResponse.size v t
    change ¬(v ≥ 1) at h
    simp only [SaslAuthenticateResponse.size, SaslAuthenticateResponse_with_SessionLifetimeMs, onlyIf_neg h]
  decode v h := by
    change ¬(v ≥ 1) at h
    refine (?_ : Keeps (fun t : SaslAuthenticateResponse => t.SessionLifetimeMs) (SaslAuthenticateResponse.decode v))
    unfold SaslAuthenticateResponse.decode
    repeat' first
      | exact Keeps.absent h
      | apply Keeps.andThen
      | exact Keeps.field fun _ _ => rfl
      | exact Keeps.fieldStructs fun _ _ => rfl
      | apply Keeps.onlyIf
  carried v h t t0 t1 := by
    change (SaslAuthenticateResponse.seen v t t0).SessionLifetimeMs = (SaslAuthenticateResponse.seen v t t1).SessionLifetimeMs
    change v ≥ 1 at h
    simp only [SaslAuthenticateResponse.seen, if_pos h]

/-- The version-dependent fields of the SaslAuthenticate messages. -/
def gatesSaslAuthenticate : List Gate :=
  [SaslAuthenticateResponse.gateSessionLifetimeMs]

theorem gatesSaslAuthenticate_hold : ∀ g ∈ gatesSaslAuthenticate, g.Holds := by
  unfold gatesSaslAuthenticate
  simp only [List.forall_mem_cons]
  exact ⟨SaslAuthenticateResponse.gateSessionLifetimeMs_holds,
    fun _ h => absurd h (by simp)⟩

end Kafka.Msg
