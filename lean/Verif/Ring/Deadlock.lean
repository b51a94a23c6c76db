import Verif.Ring.Close
/-!
Freedom from deadlock when nothing happens between the last check of a position and the
compare-and-swap of `Wait`.
-/
set_option linter.unusedSimpArgs false
namespace Kafka.Ring

/-- Schedules in which a goroutine that has decided to wait sets its flag before anything else
happens. -/
def Atomic (s : State) (a : Action) : Prop :=
  (s.wpc = .waitCas → a = .w) ∧ (s.rpc = .waitCas → a = .r)

def WPc.stored : WPc → Bool
  | .relCas | .relRecv | .reload | .waitCas | .waitSend => true
  | _ => false

def RPc.stored : RPc → Bool
  | .relCas | .relRecv | .reload | .waitCas | .waitSend => true
  | _ => false

def WPc.checked : WPc → Bool
  | .reload | .waitCas | .waitSend => true
  | _ => false

def RPc.letting : RPc → Bool
  | .relCas | .relRecv | .frelCas | .frelRecv => true
  | _ => false

/-- Neither goroutine waits in vain. -/
structure Live (N : Nat) (s : State) : Prop where
  pair : Pair s
  wst : s.wpc.stored → s.next = s.wpos
  rst : s.rpc.stored → s.start = s.rpos
  rone : s.rpc.loaded → s.rpc ≠ .load1 → s.rpc ≠ .load2 → s.rread = 0 → s.start = s.rpos
  rload : s.rpc = .load2 → s.start = s.rpos
  wcas : s.wpc = .waitCas → incr N s.next = s.start
  rcas : s.rpc = .waitCas → s.next = s.start
  both : s.rpc = .waitSend → s.wpc.checked → s.next = s.start
  full : s.wpc = .waitSend → s.rpc.letting = false → incr N s.next = s.start

theorem Live.init {N : Nat} : Live N init := by
  constructor <;> first | exact Pair.init | simp [Ring.init, WPc.stored, RPc.stored, RPc.loaded, WPc.checked]

theorem Live.wLoop {N : Nat} {s : State} (h : Live N { s with wpc := .put }) : Live N (wLoop s) := by
  obtain ⟨h0, h1, h2, h3, h4, h5, h6, h7, h8⟩ := h
  have hp := h0.wLoop
  unfold Ring.wLoop at hp ⊢
  split
  · rw [if_pos ‹_›] at hp
    exact ⟨hp, h1, h2, h3, h4, h5, h6, h7, h8⟩
  · rw [if_neg ‹_›] at hp
    exact ⟨hp, by simp [WPc.stored], h2, h3, h4, by simp, h6, by simp [WPc.checked], by simp⟩

theorem Live.rLoop {N : Nat} {s : State} (h : Live N { s with rpc := .get }) : Live N (rLoop s) := by
  obtain ⟨h0, h1, h2, h3, h4, h5, h6, h7, h8⟩ := h
  have hp := h0.rLoop
  have h8' := fun hw => h8 hw rfl
  have h3' := h3 rfl (by simp) (by simp)
  unfold Ring.rLoop at hp ⊢
  split
  · rw [if_pos ‹_›] at hp
    split
    · rw [if_pos ‹_›] at hp
      exact ⟨hp, h1, by simp [RPc.stored], fun _ _ _ => h3', by simp, h5, by simp, by simp, fun hw _ => h8' hw⟩
    · rw [if_neg ‹_›] at hp
      exact ⟨hp, h1, by simp [RPc.stored], fun _ _ _ => h3', by simp, h5, by simp, by simp, fun hw _ => h8' hw⟩
  · rw [if_neg ‹_›] at hp
    exact ⟨hp, h1, by simp [RPc.stored], fun _ _ _ => h3', by simp, h5, by simp, by simp, fun hw _ => h8' hw⟩

theorem Live.wStep {N : Nat} {s s' : State} (h : Live N s) (hok : Atomic s .w) (hp : Pair s') (hc : s.closed = false)
    (hs : wStep N s = some s') : Live N s' := by
  obtain ⟨h0, h1, h2, h3, h4, h5, h6, h7, h8⟩ := h
  have hno : s.rpc ≠ .waitCas := fun h => by simpa using hok.2 h
  have ⟨q1, q2, q3, q4⟩ := h0
  unfold Ring.wStep at hs
  split at hs <;> rename_i hpc
  case h_1 => simp at hs
  case h_3 =>
    simp only [Option.some.injEq] at hs; subst hs
    apply Live.wLoop
    refine ⟨by constructor <;> simp_all [WPc.releasing], by simp [WPc.stored], h2, h3, h4, by simp, h6, by simp [WPc.checked], by simp⟩
  case h_4 =>
    simp only [Option.some.injEq] at hs; subst hs
    split at hp
    · rw [if_pos ‹_›]
      refine ⟨hp, by simp [WPc.stored], h2, h3, h4, by simp, h6, by simp [WPc.checked], by simp⟩
    · rw [if_neg ‹_›]
      apply Live.wLoop
      refine ⟨by constructor <;> simp_all [WPc.releasing], by simp [WPc.stored], h2, h3, h4, by simp, h6, by simp [WPc.checked], by simp⟩
  case h_8 =>
    simp only [Option.some.injEq] at hs; subst hs
    split at hp
    · rw [if_pos ‹_›]
      refine ⟨hp, fun _ => h1 (by simp [hpc, WPc.stored]), h2, h3, h4, ?_, h6, fun hr _ => h7 hr (by simp [hpc, WPc.checked]), by simp⟩
      intro _
      show incr N s.next = s.start
      rw [h1 (by simp [hpc, WPc.stored])]
      assumption
    · rw [if_neg ‹_›]
      apply Live.wLoop
      refine ⟨by constructor <;> simp_all [WPc.releasing], by simp [WPc.stored], h2, h3, h4, by simp, h6, by simp [WPc.checked], by simp⟩
  all_goals (try simp only [Option.some.injEq] at hs)
  all_goals (try subst hs)
  all_goals (try (split at hs))
  all_goals (try simp only [Option.some.injEq, reduceCtorEq] at hs)
  all_goals (try subst hs)
  all_goals (try split)
  all_goals (try split at hp)
  all_goals
    constructor <;> first | assumption | (simp_all [WPc.stored, WPc.checked, WPc.releasing, wReleased, wWaited, wReturn]; done)

theorem Live.rStep {N : Nat} {s s' : State} (h : Live N s) (hok : Atomic s .r) (hp : Pair s') (hc : s.closed = false)
    (hs : rStep N s = some s') : Live N s' := by
  obtain ⟨h0, h1, h2, h3, h4, h5, h6, h7, h8⟩ := h
  have hno : s.wpc ≠ .waitCas := fun h => by simpa using hok.1 h
  have ⟨q1, q2, q3, q4⟩ := h0
  unfold Ring.rStep at hs
  split at hs <;> rename_i hpc
  case h_1 => simp at hs
  case h_3 =>
    simp only [Option.some.injEq] at hs; subst hs
    apply Live.rLoop
    refine ⟨by constructor <;> simp_all [RPc.releasing], h1, by simp [RPc.stored], fun _ _ _ _ => h4 hpc, by simp, h5, by simp, by simp,
      fun hw _ => h8 hw (by simp [hpc, RPc.letting])⟩
  case h_10 =>
    simp only [Option.some.injEq] at hs; subst hs
    apply Live.rLoop
    refine ⟨by constructor <;> simp_all [RPc.releasing], h1, by simp [RPc.stored], by simp, by simp, h5, by simp, by simp,
      fun hw _ => h8 hw (by simp [hpc, RPc.letting])⟩
  all_goals (try simp only [Option.some.injEq] at hs)
  all_goals (try subst hs)
  all_goals (try (split at hs))
  all_goals (try simp only [Option.some.injEq, reduceCtorEq] at hs)
  all_goals (try subst hs)
  all_goals (try split)
  all_goals (try split at hp)
  all_goals
    constructor <;> first | assumption | (simp_all [RPc.stored, RPc.loaded, RPc.letting, RPc.releasing, rWaited, rReturn]; done)

theorem Live.step {N : Nat} {a : Action} {s s' : State} (h : s.closed = false → Live N s) (hok : Atomic s a)
    (hs : step N a s = some s') (hc : s'.closed = false) : Live N s' := by
  have hc0 : s.closed = false := by
    cases h0 : s.closed with
    | false => rfl
    | true => have := step_closed hs h0; simp_all
  have hl := h hc0
  have hp := Pair.step (fun _ => hl.pair) hs hc
  cases a with
  | w => exact hl.wStep hok hp hc0 hs
  | r => exact hl.rStep hok hp hc0 hs
  | callW data n =>
    obtain ⟨h0, h1, h2, h3, h4, h5, h6, h7, h8⟩ := hl
    simp only [Ring.step] at hs
    split at hs
    · simp only [Option.some.injEq] at hs; subst hs
      exact ⟨hp, by simp [WPc.stored], h2, h3, h4, by simp, h6, by simp [WPc.checked], by simp⟩
    · simp at hs
  | callR dst n =>
    obtain ⟨h0, h1, h2, h3, h4, h5, h6, h7, h8⟩ := hl
    simp only [Ring.step] at hs
    split at hs
    · rename_i hi
      simp only [Option.some.injEq] at hs; subst hs
      exact ⟨hp, h1, by simp [RPc.stored], by simp, by simp, h5, by simp, by simp,
        fun hw _ => h8 hw (by simp [hi.1, RPc.letting])⟩
    · simp at hs
  | handR =>
    obtain ⟨h0, h1, h2, h3, h4, h5, h6, h7, h8⟩ := hl
    simp only [Ring.step] at hs
    split at hs
    · rename_i hr
      have hst := h2 (by simp [hr, RPc.stored])
      split at hs
      · rename_i hw
        simp only [Option.some.injEq] at hs; subst hs
        have := h1 (by simp [hw, WPc.stored])
        refine ⟨hp, fun _ => this, by simp [wReleased, rWaited, RPc.stored], fun _ _ _ _ => hst, ?_, ?_, ?_, ?_, ?_⟩ <;>
          simp [wReleased, rWaited, wReturn]
      · split at hs
        · simp only [Option.some.injEq] at hs; subst hs
          refine ⟨hp, ?_, by simp [wReturn, rWaited, RPc.stored], fun _ _ _ _ => hst, ?_, ?_, ?_, ?_, ?_⟩ <;>
            simp [wReleased, rWaited, wReturn, WPc.stored]
        · simp at hs
    · simp at hs
  | handW =>
    obtain ⟨h0, h1, h2, h3, h4, h5, h6, h7, h8⟩ := hl
    have ⟨q1, q2, q3, q4⟩ := h0
    simp only [Ring.step] at hs
    split at hs
    · rename_i hw
      split at hs
      · rename_i hr
        simp only [Option.some.injEq] at hs; subst hs
        have := h2 (by simp [hr, RPc.stored])
        apply Live.wLoop
        refine ⟨by constructor <;> simp_all [WPc.releasing, RPc.releasing], by simp [WPc.stored], fun _ => this, fun _ _ _ _ => this, by simp, by simp, by simp, by simp, by simp⟩
      · split at hs
        · simp only [Option.some.injEq] at hs; subst hs
          apply Live.wLoop
          refine ⟨by constructor <;> simp_all [WPc.releasing, RPc.releasing, rReturn], by simp [WPc.stored], ?_, ?_, ?_, ?_, ?_, ?_, ?_⟩ <;>
            simp [rReturn, RPc.stored, RPc.loaded]
        · simp at hs
    · simp at hs
  | close =>
    simp only [Ring.step, Option.some.injEq] at hs; subst hs
    simp at hc

theorem Reach.live {N : Nat} {s : State} (h : Reach N Atomic s) (hc : s.closed = false) : Live N s :=
  Reach.inv (P := fun s => s.closed = false → Live N s) (fun _ => Live.init)
    (fun _ _ _ _ hp hok hst hcl => Live.step hp hok hst hcl) h hc

theorem incr_ne {N : Nat} (hN : 2 ≤ N) (k : Nat) : incr N k ≠ k := by
  unfold incr
  split <;> omega

theorem Live.not_both {N : Nat} (hN : 2 ≤ N) {s : State} (h : Live N s) :
    ¬(s.wpc = .waitSend ∧ s.rpc = .waitSend) := by
  intro ⟨hw, hr⟩
  have h1 := h.both hr (by simp [hw, WPc.checked])
  have h2 := h.full hw (by simp [hr, RPc.letting])
  exact incr_ne hN _ (h2.trans h1.symm)

/-- Something other than a new call or `Close` can happen. -/
def CanMove (N : Nat) (s : State) : Prop :=
  ∃ a ∈ [Action.w, .r, .handR, .handW], (step N a s).isSome

/-- The only way for two goroutines in calls to be stuck is that both wait. -/
theorem Pair.canMove {N : Nat} {s : State} (h : Pair s) (hw : s.wpc ≠ .idle) 
    (hn : ¬(s.wpc = .waitSend ∧ s.rpc = .waitSend)) (hr : s.rpc ≠ .idle) : CanMove N s := by
  obtain ⟨h1, h2, h3, h4⟩ := h
  unfold CanMove
  cases hwp : s.wpc <;> simp only [hwp, WPc.releasing, ne_eq, not_true_eq_false, reduceCtorEq, not_false_eq_true] at hw h2 h4
  case relRecv => exact ⟨.handR, by simp, by simp [Ring.step, hwp, h2 trivial]⟩
  case frelRecv => exact ⟨.handR, by simp, by simp [Ring.step, hwp, h2 trivial]⟩
  case waitSend =>
    cases hrp : s.rpc <;> simp only [hrp, hwp, ne_eq, not_true_eq_false, and_self] at hr hn
    case relRecv => exact ⟨.handW, by simp, by simp [Ring.step, hwp, hrp]⟩
    case frelRecv => exact ⟨.handW, by simp, by simp [Ring.step, hwp, hrp]⟩
    all_goals exact ⟨.r, by simp, by simp [Ring.step, rStep, hrp]⟩
  all_goals exact ⟨.w, by simp, by simp [Ring.step, wStep, hwp]⟩

end Kafka.Ring
