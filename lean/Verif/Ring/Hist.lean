import Verif.Ring.Pos
/-!
What the cells of the buffer hold: the last bytes put, in every schedule.
-/
set_option linter.unusedSimpArgs false

namespace Kafka.Ring

/-- Each cell holds the last byte put into it, or zero. -/
structure Hist (N : Nat) (s : State) : Prop where
  last : ∀ k, k < s.put.length → s.put.length ≤ k + N → s.mem (k % N) = s.put.getD k 0
  fresh : ∀ j, s.put.length ≤ j → j < N → s.mem j = 0

theorem Hist.keep {N : Nat} {s s' : State} (h : Hist N s) (h1 : s'.mem = s.mem) (h2 : s'.put = s.put) : Hist N s' :=
  ⟨by rw [h1, h2]; exact h.last, by rw [h1, h2]; exact h.fresh⟩

theorem wLoop_cells (s : State) : (wLoop s).mem = s.mem ∧ (wLoop s).put = s.put := by
  unfold wLoop; split <;> exact ⟨rfl, rfl⟩

theorem rLoop_cells (s : State) : (rLoop s).mem = s.mem ∧ (rLoop s).put = s.put := by
  unfold rLoop
  split
  · split <;> exact ⟨rfl, rfl⟩
  · exact ⟨rfl, rfl⟩

/-- Only the assignment in `WriteN` changes a cell. -/
theorem step_cells {N : Nat} {a : Action} {s s' : State} (h : step N a s = some s') :
    (s'.mem = s.mem ∧ s'.put = s.put) ∨ ∃ b, s.wpc = .put ∧ s'.put = s.put ++ [b] ∧
      s'.mem = fun j => if j = s.wpos then b else s.mem j := by
  cases a
  case w =>
    simp only [step, wStep] at h
    split at h
    case h_4 hpc =>
      right
      refine ⟨s.wdata.getD s.wi 0, hpc, ?_⟩
      split at h <;> simp only [Option.some.injEq] at h <;> subst h <;> simp [wLoop_cells]
    all_goals
      left
      (repeat' split at h) <;> simp only [Option.some.injEq, reduceCtorEq] at h <;> subst h <;>
        simp [wWaited, wReleased, wReturn, wLoop_cells]
  all_goals
    left
    simp only [step, rStep] at h
    (repeat' split at h) <;> simp only [Option.some.injEq, reduceCtorEq] at h <;> subst h <;>
      simp [wWaited, wReleased, wReturn, rWaited, rReturn, wLoop_cells, rLoop_cells]

theorem Hist.step {N : Nat} {a : Action} {s s' : State} (hp : Pos N s) (h : Hist N s)
    (hs : step N a s = some s') : Hist N s' := by
  rcases step_cells hs with ⟨h1, h2⟩ | ⟨b, h1, h2, h3⟩
  · exact h.keep h1 h2
  · have hw := hp.wpos (by rw [h1]; rfl)
    constructor
    · intro k hk hk'
      rw [h2, List.length_append, List.length_singleton] at hk hk'
      rw [h2, h3]
      simp only [hw]
      by_cases he : k = s.put.length
      · subst he
        simp
      · have hne : k % N ≠ s.put.length % N := by
          intro e
          have e1 := Nat.div_add_mod k N
          have e2 := Nat.div_add_mod s.put.length N
          rw [e] at e1
          have hlt : k < s.put.length := by omega
          have h5 : N * (k / N) < N * (s.put.length / N) := by omega
          have h6 : k / N < s.put.length / N := Nat.lt_of_mul_lt_mul_left h5
          have h7 : N * (k / N + 1) ≤ N * (s.put.length / N) := Nat.mul_le_mul_left _ h6
          rw [Nat.mul_add] at h7
          omega
        rw [if_neg hne, h.last k (by omega) (by omega)]
        simp [List.getD_eq_getElem?_getD, List.getElem?_append, show k < s.put.length by omega]
    · intro j hj hj'
      rw [h2, List.length_append, List.length_singleton] at hj
      rw [h3]
      simp only [hw]
      rw [if_neg (by rw [Nat.mod_eq_of_lt (by omega)]; omega)]
      exact h.fresh j (by omega) hj'

theorem Reach.hist {N : Nat} (hN : 0 < N) {ok : State → Action → Prop} {s : State} (h : Reach N ok s) : Hist N s := by
  induction h with
  | init => exact ⟨by simp [Ring.init], fun _ _ _ => rfl⟩
  | step a hr _ hs ih => exact ih.step (hr.pos hN) hs

end Kafka.Ring
