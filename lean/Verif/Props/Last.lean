import Verif.Props.Input
/-!
C52: in which executions bytes are dropped.
-/
set_option linter.unusedSimpArgs false

namespace Kafka.Props

open Conn

/-- What has been dropped stays dropped. -/
theorem lost_grows {P : Params} {s s' : Conn.State} {a : Act} (h : Trans P s a s') :
    s.lost.length ≤ s'.lost.length ∧ ∀ data, a = .readErr data → s.lost.length + data.length ≤ s'.lost.length := by
  cases h <;> simp [State.set]

theorem lost_run {P : Params} : ∀ (as : List Act) {s s' : Conn.State}, Conn.run P as s = some s' →
    s.lost.length ≤ s'.lost.length ∧ ∀ data, .readErr data ∈ as → data.length ≤ s'.lost.length
  | [], s, s', h => by
    simp only [Conn.run, Option.some.injEq] at h
    subst h
    simp
  | a :: as, s, s', h => by
    simp only [Conn.run] at h
    obtain ⟨s1, h1, h2⟩ := Option.bind_eq_some_iff.1 h
    obtain ⟨g1, g2⟩ := lost_grows (step_trans h1)
    obtain ⟨g3, g4⟩ := lost_run as h2
    refine ⟨by omega, fun data hd => ?_⟩
    rcases List.mem_cons.1 hd with rfl | hd
    · have := g2 data rfl; omega
    · exact g4 data hd

/-- **C52.**  What is dropped is what `raw.Read` returned along with its errors, in every schedule; so the claim is true of exactly
the schedules in which it returned nothing along with them. -/
theorem C52_exact {P : Params} (hP : 4 ≤ P.buf) {as : List Act} {s : Conn.State} (h : Conn.run P as (Conn.init P) = some s) :
    s.ring.given = s.received ∧ (s.ring.given = s.received ++ s.lost ↔ ∀ data, .readErr data ∈ as → data = []) := by
  have hr := connReach_of_run h
  have hg := (hr.stream hP).given
  refine ⟨hg, fun h1 data hd => ?_, fun h1 => ?_⟩
  · rw [hg] at h1
    have h2 := congrArg List.length h1
    rw [List.length_append] at h2
    have h3 := (lost_run as h).2 data hd
    exact List.length_eq_zero_iff.1 (by omega)
  · refine C52_partial hP s (Conn.Reach.run .init as (fun a ha s => ?_) h)
    cases a with
    | readErr data => exact h1 data ha
    | _ => trivial

/-- Non-trivial instances: of one schedule either way. -/
example : ∃ s, Conn.run small (deliver [0, 0, 0, 4, 0, 0, 0, 1] ++ [.readErr [7, 7]]) (Conn.init small) = some s ∧
    s.received = [0, 0, 0, 4, 0, 0, 0, 1] ∧ s.lost = [7, 7] := by
  have h : ((Conn.run small (deliver [0, 0, 0, 4, 0, 0, 0, 1] ++ [.readErr [7, 7]]) (Conn.init small)).map fun s =>
      (s.received, s.lost)) = some ([0, 0, 0, 4, 0, 0, 0, 1], [7, 7]) := by decide +kernel
  obtain ⟨s, h1, h2⟩ := Option.map_eq_some_iff.1 h
  simp only [Prod.mk.injEq] at h2
  exact ⟨s, h1, h2⟩

end Kafka.Props
