import Verif.Ring.Mutex
/-!
What a writer does to a waiting reader.
-/
set_option linter.unusedSimpArgs false
namespace Kafka.Ring

/-- The writer is in a `WriteN` of at least two bytes, the reader has been waiting since before
that call, and no hand-over has happened. -/
def Unwoken (s : State) : Prop :=
  s.closed = false ∧ s.rpc = .waitSend ∧ 2 ≤ s.wn ∧
    match s.wpc with
    | .load1 | .load2 => s.rset = true
    | .put | .store | .relCas | .fstore | .frelCas => s.rset = true ∧ s.wwrote = 0
    | .relRecv | .frelRecv => True
    | _ => False

theorem Unwoken.wLoop {s : State} (h1 : s.closed = false) (h2 : s.rpc = .waitSend) (h3 : 2 ≤ s.wn)
    (h4 : s.rset = true) (h5 : s.wwrote = 0) : Unwoken (wLoop s) := by
  unfold Ring.wLoop
  split <;> exact ⟨h1, h2, h3, h4, h5⟩

theorem Unwoken.step {N : Nat} {a : Action} {s s' : State} (h : Unwoken s)
    (ha : a ≠ .handR) (hc : a ≠ .close) (hs : step N a s = some s') : Unwoken s' := by
  obtain ⟨h1, h2, h3, h4⟩ := h
  cases a with
  | handR => exact absurd rfl ha
  | close => exact absurd rfl hc
  | callW data n =>
    simp only [Ring.step] at hs
    split at hs
    · rename_i h; simp [h.1] at h4
    · simp at hs
  | callR dst n => simp [Ring.step, h2] at hs
  | r => simp [Ring.step, rStep, h2, h1] at hs
  | handW =>
    simp only [Ring.step] at hs
    split at hs
    · rename_i h; simp [h] at h4
    · simp at hs
  | w =>
    simp only [Ring.step] at hs
    unfold wStep at hs
    split at hs <;> rename_i hpc <;> simp only [hpc] at h4 <;> try contradiction
    · simp only [Option.some.injEq] at hs; subst hs
      exact ⟨h1, h2, h3, h4⟩
    · simp only [Option.some.injEq] at hs; subst hs
      exact Unwoken.wLoop h1 h2 h3 h4 rfl
    · simp only [Option.some.injEq] at hs; subst hs
      split
      · exact ⟨h1, h2, h3, h4.1, h4.2⟩
      · exact Unwoken.wLoop h1 h2 h3 h4.1 h4.2
    · simp only [Option.some.injEq] at hs; subst hs
      exact ⟨h1, h2, h3, h4.1, h4.2⟩
    · simp only [Option.some.injEq, h4.1, if_true] at hs; subst hs
      exact ⟨h1, h2, h3, trivial⟩
    · simp [h1] at hs
    · simp only [Option.some.injEq] at hs; subst hs
      rw [if_pos (by omega)]
      exact ⟨h1, h2, h3, h4.1, h4.2⟩
    · simp only [Option.some.injEq, h4.1, if_true] at hs; subst hs
      exact ⟨h1, h2, h3, trivial⟩
    · simp [h1] at hs

theorem Unwoken.run {N : Nat} (as : List Action) (ha : .handR ∉ as) (hc : .close ∉ as) :
    ∀ {s s' : State}, Unwoken s → run N as s = some s' → Unwoken s' := by
  induction as with
  | nil => intro s s' h hs; simp only [Ring.run, Option.some.injEq] at hs; subst hs; exact h
  | cons a as ih =>
    intro s s' h hs
    simp only [Ring.run] at hs
    obtain ⟨s1, h1, h2⟩ := Option.bind_eq_some_iff.1 hs
    simp only [List.mem_cons, not_or] at ha hc
    exact ih ha.2 hc.2 (h.step (Ne.symm ha.1) (Ne.symm hc.1) h1) h2

end Kafka.Ring
