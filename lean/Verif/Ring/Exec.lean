import Verif.Ring.Buffer
/-!
Running schedules of the ring buffer for every capacity.
-/
set_option linter.unusedSimpArgs false

namespace Kafka.Ring

theorem run_next {N : Nat} {a : Action} {as : List Action} {s s1 : State} {p : State → Prop} (h : step N a s = some s1)
    (h' : ∃ s', run N as s1 = some s' ∧ p s') : ∃ s', run N (a :: as) s = some s' ∧ p s' := by
  rw [run, h]; exact h'

theorem run_then {N : Nat} {bs : List Action} {q p : State → Prop} : ∀ (as : List Action) {s : State},
    (∃ s1, run N as s = some s1 ∧ q s1) → (∀ s1, q s1 → ∃ s', run N bs s1 = some s' ∧ p s') →
    ∃ s', run N (as ++ bs) s = some s' ∧ p s'
  | [], _, ⟨_, h1, h2⟩, h => by cases h1; exact h _ h2
  | a :: as, s, ⟨s1, h1, h2⟩, h => by
    obtain ⟨s2, h3, h4⟩ := Option.bind_eq_some_iff.1 h1
    exact run_next h3 (run_then as ⟨s1, h4, h2⟩ h)

/-- A writer that has begun at position 0 and has enough to write goes on until the buffer is full, and waits. -/
theorem fills {N : Nat} : ∀ (m : Nat) (s : State), s.wpc = .put → s.wpos + 2 + m = N → s.wstart = 0 → s.start = 0 →
    s.rset = false → s.wset = false → s.wi + m < s.wn →
    ∃ s', run N (List.replicate (m + 5) .w) s = some s' ∧
      s'.wpc = .waitSend ∧ s'.rpc = s.rpc ∧ s'.rset = false ∧ s'.closed = s.closed
  | 0, s, h1, h2, h3, h4, h5, h6, h7 => by
    have e1 : incr N s.wpos = s.wpos + 1 := by simp [incr]; omega
    have e2 : incr N (s.wpos + 1) = 0 := by simp [incr]; omega
    iterate 5 refine run_next (by
      simp [step, wStep, wLoop, wReleased, h1, h3, h4, h5, h6, e1, e2]; rfl) ?_
    exact ⟨_, rfl, rfl, rfl, rfl, rfl⟩
  | m + 1, s, h1, h2, h3, h4, h5, h6, h7 => by
    have e1 : incr N s.wpos = s.wpos + 1 := by simp [incr]; omega
    have e2 : ¬ incr N (s.wpos + 1) = 0 := by simp [incr]; omega
    have e3 : s.wi + 1 < s.wn := by omega
    refine run_next (by simp [step, wStep, wLoop, h1, h3, e1, e2, e3]; rfl) ?_
    exact fills m _ rfl (by show s.wpos + 1 + 2 + m = N; omega) rfl h4 h5 h6 (by show s.wi + 1 + m < s.wn; omega)

end Kafka.Ring
