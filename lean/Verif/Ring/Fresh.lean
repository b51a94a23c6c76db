import Verif.Ring.Deadlock
/-!
Freedom from deadlock when a goroutine that sets the flag of `Wait` would still wait if it looked again.
-/
set_option linter.unusedSimpArgs false
namespace Kafka.Ring

/-- A goroutine sets the flag of `Wait` only if, at that moment, the buffer is full (writer), respectively empty (reader). -/
def Fresh (N : Nat) (s : State) (a : Action) : Prop :=
  (a = .w → s.wpc = .waitCas → incr N s.next = s.start) ∧ (a = .r → s.rpc = .waitCas → s.next = s.start)

/-- Neither goroutine waits in vain. -/
structure Awake (N : Nat) (s : State) : Prop where
  pair : Pair s
  wst : s.wpc.stored → s.next = s.wpos
  rst : s.rpc.stored → s.start = s.rpos
  rone : s.rpc.loaded → s.rpc ≠ .load1 → s.rpc ≠ .load2 → s.rread = 0 → s.start = s.rpos
  rload : s.rpc = .load2 → s.start = s.rpos
  both : s.rpc = .waitSend → s.wpc.checked → s.next = s.start
  full : s.wpc = .waitSend → s.rpc.letting = false → incr N s.next = s.start

theorem Awake.init {N : Nat} : Awake N init := by
  constructor <;> first | exact Pair.init | simp [Ring.init, WPc.stored, RPc.stored, RPc.loaded, WPc.checked]

theorem Awake.wLoop {N : Nat} {s : State} (h : Awake N { s with wpc := .put }) : Awake N (wLoop s) := by
  obtain ⟨h0, h1, h2, h3, h4, h7, h8⟩ := h
  have hp := h0.wLoop
  unfold Ring.wLoop at hp ⊢
  split
  · rw [if_pos ‹_›] at hp
    exact ⟨hp, h1, h2, h3, h4, h7, h8⟩
  · rw [if_neg ‹_›] at hp
    exact ⟨hp, by simp [WPc.stored], h2, h3, h4, by simp [WPc.checked], by simp⟩

theorem Awake.rLoop {N : Nat} {s : State} (h : Awake N { s with rpc := .get }) : Awake N (rLoop s) := by
  obtain ⟨h0, h1, h2, h3, h4, h7, h8⟩ := h
  have hp := h0.rLoop
  have h8' := fun hw => h8 hw rfl
  have h3' := h3 rfl (by simp) (by simp)
  unfold Ring.rLoop at hp ⊢
  split
  · rw [if_pos ‹_›] at hp
    split
    · rw [if_pos ‹_›] at hp
      exact ⟨hp, h1, by simp [RPc.stored], fun _ _ _ => h3', by simp, by simp, fun hw _ => h8' hw⟩
    · rw [if_neg ‹_›] at hp
      exact ⟨hp, h1, by simp [RPc.stored], fun _ _ _ => h3', by simp, by simp, fun hw _ => h8' hw⟩
  · rw [if_neg ‹_›] at hp
    exact ⟨hp, h1, by simp [RPc.stored], fun _ _ _ => h3', by simp, by simp, fun hw _ => h8' hw⟩

theorem Awake.wStep {N : Nat} {s s' : State} (h : Awake N s) (hok : Fresh N s .w) (hp : Pair s') (hc : s.closed = false)
    (hs : wStep N s = some s') : Awake N s' := by
  obtain ⟨h0, h1, h2, h3, h4, h7, h8⟩ := h
  have hno := hok.1 rfl
  have ⟨q1, q2, q3, q4⟩ := h0
  unfold Ring.wStep at hs
  split at hs <;> rename_i hpc
  case h_1 => simp at hs
  case h_3 =>
    simp only [Option.some.injEq] at hs; subst hs
    apply Awake.wLoop
    refine ⟨by constructor <;> simp_all [WPc.releasing], by simp [WPc.stored], h2, h3, h4, by simp [WPc.checked], by simp⟩
  case h_4 =>
    simp only [Option.some.injEq] at hs; subst hs
    split at hp
    · rw [if_pos ‹_›]
      refine ⟨hp, by simp [WPc.stored], h2, h3, h4, by simp [WPc.checked], by simp⟩
    · rw [if_neg ‹_›]
      apply Awake.wLoop
      refine ⟨by constructor <;> simp_all [WPc.releasing], by simp [WPc.stored], h2, h3, h4, by simp [WPc.checked], by simp⟩
  case h_8 =>
    simp only [Option.some.injEq] at hs; subst hs
    split at hp
    · rw [if_pos ‹_›]
      refine ⟨hp, fun _ => h1 (by simp [hpc, WPc.stored]), h2, h3, h4, fun hr _ => h7 hr (by simp [hpc, WPc.checked]), by simp⟩
    · rw [if_neg ‹_›]
      apply Awake.wLoop
      refine ⟨by constructor <;> simp_all [WPc.releasing], by simp [WPc.stored], h2, h3, h4, by simp [WPc.checked], by simp⟩
  all_goals (try simp only [Option.some.injEq] at hs)
  all_goals (try subst hs)
  all_goals (try (split at hs))
  all_goals (try simp only [Option.some.injEq, reduceCtorEq] at hs)
  all_goals (try subst hs)
  all_goals (try split)
  all_goals (try split at hp)
  all_goals
    constructor <;> first | assumption | (simp_all [WPc.stored, WPc.checked, WPc.releasing, wReleased, wWaited, wReturn]; done)

theorem Awake.rStep {N : Nat} {s s' : State} (h : Awake N s) (hok : Fresh N s .r) (hp : Pair s') (hc : s.closed = false)
    (hs : rStep N s = some s') : Awake N s' := by
  obtain ⟨h0, h1, h2, h3, h4, h7, h8⟩ := h
  have hno := hok.2 rfl
  have ⟨q1, q2, q3, q4⟩ := h0
  unfold Ring.rStep at hs
  split at hs <;> rename_i hpc
  case h_1 => simp at hs
  case h_3 =>
    simp only [Option.some.injEq] at hs; subst hs
    apply Awake.rLoop
    refine ⟨by constructor <;> simp_all [RPc.releasing], h1, by simp [RPc.stored], fun _ _ _ _ => h4 hpc, by simp, by simp,
      fun hw _ => h8 hw (by simp [hpc, RPc.letting])⟩
  case h_10 =>
    simp only [Option.some.injEq] at hs; subst hs
    apply Awake.rLoop
    refine ⟨by constructor <;> simp_all [RPc.releasing], h1, by simp [RPc.stored], by simp, by simp, by simp,
      fun hw _ => h8 hw (by simp [hpc, RPc.letting])⟩
  all_goals (try simp only [Option.some.injEq] at hs)
  all_goals (try subst hs)
  all_goals (try (split at hs))
  all_goals (try simp only [Option.some.injEq, reduceCtorEq] at hs)
  all_goals (try subst hs)
  all_goals (try split)
  all_goals (try split at hp)
  all_goals
    constructor <;> first | assumption | (simp_all [RPc.stored, RPc.loaded, RPc.letting, RPc.releasing, rWaited, rReturn]; done)

theorem Awake.step {N : Nat} {a : Action} {s s' : State} (h : s.closed = false → Awake N s) (hok : Fresh N s a)
    (hs : step N a s = some s') (hc : s'.closed = false) : Awake N s' := by
  have hc0 : s.closed = false := by
    cases h0 : s.closed with
    | false => rfl
    | true => have := step_closed hs h0; simp_all
  have hl := h hc0
  have hp := Pair.step (fun _ => hl.pair) hs hc
  cases a with
  | w => exact hl.wStep hok hp hc0 hs
  | r => exact hl.rStep hok hp hc0 hs
  | callW data n =>
    obtain ⟨h0, h1, h2, h3, h4, h7, h8⟩ := hl
    simp only [Ring.step] at hs
    split at hs
    · simp only [Option.some.injEq] at hs; subst hs
      exact ⟨hp, by simp [WPc.stored], h2, h3, h4, by simp [WPc.checked], by simp⟩
    · simp at hs
  | callR dst n =>
    obtain ⟨h0, h1, h2, h3, h4, h7, h8⟩ := hl
    simp only [Ring.step] at hs
    split at hs
    · rename_i hi
      simp only [Option.some.injEq] at hs; subst hs
      exact ⟨hp, h1, by simp [RPc.stored], by simp, by simp, by simp,
        fun hw _ => h8 hw (by simp [hi.1, RPc.letting])⟩
    · simp at hs
  | handR =>
    obtain ⟨h0, h1, h2, h3, h4, h7, h8⟩ := hl
    simp only [Ring.step] at hs
    split at hs
    · rename_i hr
      have hst := h2 (by simp [hr, RPc.stored])
      split at hs
      · rename_i hw
        simp only [Option.some.injEq] at hs; subst hs
        have := h1 (by simp [hw, WPc.stored])
        refine ⟨hp, fun _ => this, by simp [wReleased, rWaited, RPc.stored], fun _ _ _ _ => hst, ?_, ?_, ?_⟩ <;>
          simp [wReleased, rWaited, wReturn]
      · split at hs
        · simp only [Option.some.injEq] at hs; subst hs
          refine ⟨hp, ?_, by simp [wReturn, rWaited, RPc.stored], fun _ _ _ _ => hst, ?_, ?_, ?_⟩ <;>
            simp [wReleased, rWaited, wReturn, WPc.stored]
        · simp at hs
    · simp at hs
  | handW =>
    obtain ⟨h0, h1, h2, h3, h4, h7, h8⟩ := hl
    have ⟨q1, q2, q3, q4⟩ := h0
    simp only [Ring.step] at hs
    split at hs
    · rename_i hw
      split at hs
      · rename_i hr
        simp only [Option.some.injEq] at hs; subst hs
        have := h2 (by simp [hr, RPc.stored])
        apply Awake.wLoop
        refine ⟨by constructor <;> simp_all [WPc.releasing, RPc.releasing], by simp [WPc.stored], fun _ => this, fun _ _ _ _ => this, by simp, by simp, by simp⟩
      · split at hs
        · simp only [Option.some.injEq] at hs; subst hs
          apply Awake.wLoop
          refine ⟨by constructor <;> simp_all [WPc.releasing, RPc.releasing, rReturn], by simp [WPc.stored], ?_, ?_, ?_, ?_, ?_⟩ <;>
            simp [rReturn, RPc.stored, RPc.loaded]
        · simp at hs
    · simp at hs
  | close =>
    simp only [Ring.step, Option.some.injEq] at hs; subst hs
    simp at hc

theorem Reach.awake {N : Nat} {s : State} (h : Reach N (Fresh N) s) (hc : s.closed = false) : Awake N s :=
  Reach.inv (P := fun s => s.closed = false → Awake N s) (fun _ => Awake.init)
    (fun _ _ _ _ hp hok hst hcl => Awake.step hp hok hst hcl) h hc

theorem Awake.not_both {N : Nat} (hN : 2 ≤ N) {s : State} (h : Awake N s) :
    ¬(s.wpc = .waitSend ∧ s.rpc = .waitSend) := by
  intro ⟨hw, hr⟩
  have h1 := h.both hr (by simp [hw, WPc.checked])
  have h2 := h.full hw (by simp [hr, RPc.letting])
  exact incr_ne hN _ (h2.trans h1.symm)

end Kafka.Ring
