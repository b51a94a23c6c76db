import Verif.Ring.Mutex
/-!
Termination of the calls once the buffer is closed.
-/
set_option linter.unusedSimpArgs false
namespace Kafka.Ring

/-- Bound on the writer's own operations until `WriteN` returns. -/
def WPc.cost (n i : Nat) : WPc → Nat
  | .idle => 0
  | .load1 => 7 * n + 5
  | .load2 => 7 * n + 4
  | .put => 7 * (n - (i + 1)) + 10
  | .store => 7 * (n - (i + 1)) + 9
  | .relCas => 7 * (n - (i + 1)) + 8
  | .relRecv => 7 * (n - (i + 1)) + 7
  | .reload => 7 * (n - (i + 1)) + 6
  | .waitCas => 7 * (n - (i + 1)) + 5
  | .waitSend => 7 * (n - (i + 1)) + 4
  | .fstore => 3
  | .frelCas => 2
  | .frelRecv => 1

def wCost (s : State) : Nat := s.wpc.cost s.wn s.wi

/-- Bound on the reader's own operations until `ReadN` returns. -/
def RPc.cost (n i : Nat) : RPc → Nat
  | .idle => 0
  | .load1 => 7 * n + 5
  | .load2 => 7 * n + 4
  | .store => 7 * (n - (i + 1)) + 10
  | .relCas => 7 * (n - (i + 1)) + 9
  | .relRecv => 7 * (n - (i + 1)) + 8
  | .reload => 7 * (n - (i + 1)) + 7
  | .waitCas => 7 * (n - (i + 1)) + 6
  | .waitSend => 7 * (n - (i + 1)) + 5
  | .get => 7 * (n - (i + 1)) + 4
  | .fstore => 3
  | .frelCas => 2
  | .frelRecv => 1

def rCost (s : State) : Nat := s.rpc.cost s.rn s.ri

theorem wCost_wLoop (s : State) : wCost (wLoop s) ≤ 7 * (s.wn - s.wi) + 3 := by
  unfold wLoop
  split <;> simp only [wCost, WPc.cost] <;> omega

theorem rCost_rLoop (s : State) : rCost (rLoop s) ≤ 7 * (s.rn - s.ri) + 3 := by
  unfold rLoop
  split
  · split <;> simp only [rCost, RPc.cost] <;> omega
  · simp only [rCost, RPc.cost]; omega

theorem wStep_cost {N : Nat} {s s' : State} (hs : wStep N s = some s') : wCost s' < wCost s := by
  unfold wStep at hs
  split at hs <;> rename_i hpc
  all_goals have hcost : wCost s = WPc.cost s.wn s.wi _ := congrArg (WPc.cost s.wn s.wi) hpc
  all_goals rw [hcost]
  case h_1 => simp at hs
  case h_3 =>
    simp only [Option.some.injEq] at hs; subst hs
    refine Nat.lt_of_le_of_lt (wCost_wLoop _) ?_
    simp only [WPc.cost]; omega
  all_goals
    (try split at hs) <;> simp only [Option.some.injEq, reduceCtorEq] at hs <;> subst hs <;>
    (try split) <;> first
      | (simp only [wCost, WPc.cost, wReleased, wReturn]; omega)
      | (refine Nat.lt_of_le_of_lt (wCost_wLoop _) ?_
         simp only [WPc.cost]; omega)

theorem rStep_cost {N : Nat} {s s' : State} (hs : rStep N s = some s') : rCost s' < rCost s := by
  unfold rStep at hs
  split at hs <;> rename_i hpc
  all_goals have hcost : rCost s = RPc.cost s.rn s.ri _ := congrArg (RPc.cost s.rn s.ri) hpc
  all_goals rw [hcost]
  case h_1 => simp at hs
  case h_3 =>
    simp only [Option.some.injEq] at hs; subst hs
    refine Nat.lt_of_le_of_lt (rCost_rLoop _) ?_
    simp only [RPc.cost]; omega
  all_goals
    (try split at hs) <;> simp only [Option.some.injEq, reduceCtorEq] at hs <;> subst hs <;>
    (try split) <;> first
      | (simp only [rCost, RPc.cost, rWaited, rReturn]; omega)
      | (refine Nat.lt_of_le_of_lt (rCost_rLoop _) ?_
         simp only [RPc.cost]; omega)

theorem wStep_enabled {N : Nat} {s : State} (hc : s.closed = true) (h : s.wpc ≠ .idle) :
    (wStep N s).isSome := by
  unfold wStep
  split <;> simp_all

theorem rStep_enabled {N : Nat} {s : State} (hc : s.closed = true) (h : s.rpc ≠ .idle) :
    (rStep N s).isSome := by
  unfold rStep
  split <;> simp_all

theorem rLoop_wCost (s : State) : wCost (rLoop s) = wCost s := by
  unfold rLoop; split <;> (try split) <;> rfl

theorem wLoop_rCost (s : State) : rCost (wLoop s) = rCost s := by
  unfold wLoop; split <;> rfl

theorem rStep_wCost {N : Nat} {s s' : State} (hs : rStep N s = some s') :
    wCost s' = wCost s ∧ s'.closed = s.closed := by
  unfold rStep at hs
  split at hs <;> (try split at hs) <;> simp only [Option.some.injEq, reduceCtorEq] at hs <;> subst hs <;>
    (try split) <;> simp_all [rWaited, rReturn, wCost]

theorem wStep_rCost {N : Nat} {s s' : State} (hs : wStep N s = some s') :
    rCost s' = rCost s ∧ s'.closed = s.closed := by
  unfold wStep at hs
  split at hs <;> (try split at hs) <;> simp only [Option.some.injEq, reduceCtorEq] at hs <;> subst hs <;>
    (try split) <;> simp_all [wWaited, wReleased, wReturn, rCost]

/-- Operations of the writer. -/
def Action.ofWriter : Action → Bool
  | .w | .handR | .handW => true
  | _ => false

def Action.ofReader : Action → Bool
  | .r | .handR | .handW => true
  | _ => false

def Action.isCallW : Action → Bool
  | .callW .. => true
  | _ => false

def Action.isCallR : Action → Bool
  | .callR .. => true
  | _ => false

theorem hand_cost {N : Nat} {a : Action} (ha : a = .handR ∨ a = .handW) {s s' : State}
    (hs : step N a s = some s') : wCost s' < wCost s ∧ rCost s' < rCost s ∧ s'.closed = s.closed := by
  rcases ha with rfl | rfl <;> simp only [step] at hs
  · split at hs
    · rename_i hr
      split at hs
      · rename_i hw
        simp only [Option.some.injEq] at hs; subst hs
        simp only [wCost, rCost, WPc.cost, RPc.cost, hr, hw, wReleased, rWaited]
        refine ⟨by omega, by omega, trivial⟩
      · split at hs
        · rename_i hw
          simp only [Option.some.injEq] at hs; subst hs
          simp only [wCost, rCost, WPc.cost, RPc.cost, hr, hw, wReturn, rWaited]
          refine ⟨by omega, by omega, trivial⟩
        · simp at hs
    · simp at hs
  · split at hs
    · rename_i hw
      split at hs
      · rename_i hr
        simp only [Option.some.injEq] at hs; subst hs
        refine ⟨Nat.lt_of_le_of_lt (wCost_wLoop _) ?_, ?_, ?_⟩
        · simp only [wCost, WPc.cost, hw]; omega
        · rw [wWaited, wLoop_rCost]
          simp only [rCost, RPc.cost, hr]; omega
        · simp [wWaited]
      · split at hs
        · rename_i hr
          simp only [Option.some.injEq] at hs; subst hs
          refine ⟨Nat.lt_of_le_of_lt (wCost_wLoop _) ?_, ?_, ?_⟩
          · simp only [wCost, WPc.cost, hw, rReturn]; omega
          · rw [wWaited, wLoop_rCost]
            simp only [rCost, RPc.cost, hr, rReturn]; omega
          · simp [wWaited, rReturn]
        · simp at hs
    · simp at hs

theorem step_wCost {N : Nat} {a : Action} (ha : a.isCallW = false) {s s' : State}
    (hs : step N a s = some s') : (if a.ofWriter then 1 else 0) + wCost s' ≤ wCost s := by
  cases a with
  | callW => simp [Action.isCallW] at ha
  | callR dst n =>
    simp only [step] at hs
    split at hs
    · simp only [Option.some.injEq] at hs; subst hs
      simp [Action.ofWriter, wCost]
    · simp at hs
  | w => have := wStep_cost hs; simp only [Action.ofWriter, if_true]; omega
  | r => have := (rStep_wCost hs).1; simp [Action.ofWriter, this]
  | handR => have := (hand_cost (Or.inl rfl) hs).1; simp only [Action.ofWriter, if_true]; omega
  | handW => have := (hand_cost (Or.inr rfl) hs).1; simp only [Action.ofWriter, if_true]; omega
  | close =>
    simp only [step, Option.some.injEq] at hs; subst hs
    simp [Action.ofWriter, wCost]

theorem step_rCost {N : Nat} {a : Action} (ha : a.isCallR = false) {s s' : State}
    (hs : step N a s = some s') : (if a.ofReader then 1 else 0) + rCost s' ≤ rCost s := by
  cases a with
  | callR => simp [Action.isCallR] at ha
  | callW dst n =>
    simp only [step] at hs
    split at hs
    · simp only [Option.some.injEq] at hs; subst hs
      simp [Action.ofReader, rCost]
    · simp at hs
  | r => have := rStep_cost hs; simp only [Action.ofReader, if_true]; omega
  | w => have := (wStep_rCost hs).1; simp [Action.ofReader, this]
  | handR => have := (hand_cost (Or.inl rfl) hs).2.1; simp only [Action.ofReader, if_true]; omega
  | handW => have := (hand_cost (Or.inr rfl) hs).2.1; simp only [Action.ofReader, if_true]; omega
  | close =>
    simp only [step, Option.some.injEq] at hs; subst hs
    simp [Action.ofReader, rCost]

theorem run_wCost {N : Nat} (as : List Action) (ha : ∀ a ∈ as, a.isCallW = false) :
    ∀ {s s' : State}, run N as s = some s' → as.countP Action.ofWriter + wCost s' ≤ wCost s := by
  induction as with
  | nil =>
    intro s s' hs
    simp only [run, Option.some.injEq] at hs; subst hs
    simp
  | cons a as ih =>
    intro s s' hs
    simp only [run] at hs
    obtain ⟨s1, h1, h2⟩ := Option.bind_eq_some_iff.1 hs
    have h3 := step_wCost (ha a (by simp)) h1
    have h4 := ih (fun b hb => ha b (List.mem_cons_of_mem _ hb)) h2
    rw [List.countP_cons]
    omega

theorem run_rCost {N : Nat} (as : List Action) (ha : ∀ a ∈ as, a.isCallR = false) :
    ∀ {s s' : State}, run N as s = some s' → as.countP Action.ofReader + rCost s' ≤ rCost s := by
  induction as with
  | nil =>
    intro s s' hs
    simp only [run, Option.some.injEq] at hs; subst hs
    simp
  | cons a as ih =>
    intro s s' hs
    simp only [run] at hs
    obtain ⟨s1, h1, h2⟩ := Option.bind_eq_some_iff.1 hs
    have h3 := step_rCost (ha a (by simp)) h1
    have h4 := ih (fun b hb => ha b (List.mem_cons_of_mem _ hb)) h2
    rw [List.countP_cons]
    omega

theorem step_closed {N : Nat} {a : Action} {s s' : State} (hs : step N a s = some s')
    (hc : s.closed = true) : s'.closed = true := by
  cases a with
  | callW =>
    simp only [step] at hs
    split at hs
    · simp only [Option.some.injEq] at hs; subst hs; exact hc
    · simp at hs
  | callR =>
    simp only [step] at hs
    split at hs
    · simp only [Option.some.injEq] at hs; subst hs; exact hc
    · simp at hs
  | w => rw [(wStep_rCost hs).2]; exact hc
  | r => rw [(rStep_wCost hs).2]; exact hc
  | handR => rw [(hand_cost (Or.inl rfl) hs).2.2]; exact hc
  | handW => rw [(hand_cost (Or.inr rfl) hs).2.2]; exact hc
  | close => simp only [step, Option.some.injEq] at hs; subst hs; rfl

theorem run_closed {N : Nat} (as : List Action) : ∀ {s s' : State}, run N as s = some s' →
    s.closed = true → s'.closed = true := by
  induction as with
  | nil => intro s s' hs hc; simp only [run, Option.some.injEq] at hs; subst hs; exact hc
  | cons a as ih =>
    intro s s' hs hc
    simp only [run] at hs
    obtain ⟨s1, h1, h2⟩ := Option.bind_eq_some_iff.1 hs
    exact ih h2 (step_closed h1 hc)

end Kafka.Ring
