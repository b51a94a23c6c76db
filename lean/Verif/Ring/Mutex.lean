import Verif.Ring.Pos
/-!
The hand-over between `Wait` and `Release`, in every schedule.
-/
set_option linter.unusedSimpArgs false
namespace Kafka.Ring

/-- The writer is in the select of `Release`. -/
def WPc.releasing : WPc → Bool
  | .relRecv | .frelRecv => true
  | _ => false

def RPc.releasing : RPc → Bool
  | .relRecv | .frelRecv => true
  | _ => false

/-- As long as the buffer is not closed: a flag is set exactly while its waiter is in the
select of `Wait` and no `Release` has answered yet, and a `Release` in its select has its
waiter in the select of `Wait`. -/
structure Pair (s : State) : Prop where
  rset : s.rset = true ↔ s.rpc = .waitSend ∧ s.wpc.releasing = false
  rrel : s.wpc.releasing = true → s.rpc = .waitSend
  wset : s.wset = true ↔ s.wpc = .waitSend ∧ s.rpc.releasing = false
  wrel : s.rpc.releasing = true → s.wpc = .waitSend

theorem Pair.init : Pair init := by
  constructor <;> simp [Ring.init, WPc.releasing, RPc.releasing]

theorem wLoop_pc (s : State) : (wLoop s).wpc = .put ∨ (wLoop s).wpc = .fstore := by
  unfold wLoop; split <;> simp

theorem rLoop_pc (s : State) : (rLoop s).rpc = .store ∨ (rLoop s).rpc = .get ∨ (rLoop s).rpc = .fstore := by
  unfold rLoop; split
  · split <;> simp
  · simp

@[simp] theorem wLoop_rset (s : State) : (wLoop s).rset = s.rset := by unfold wLoop; split <;> rfl
@[simp] theorem wLoop_wset (s : State) : (wLoop s).wset = s.wset := by unfold wLoop; split <;> rfl
@[simp] theorem wLoop_rpc (s : State) : (wLoop s).rpc = s.rpc := by unfold wLoop; split <;> rfl
@[simp] theorem wLoop_closed (s : State) : (wLoop s).closed = s.closed := by unfold wLoop; split <;> rfl
@[simp] theorem rLoop_rset (s : State) : (rLoop s).rset = s.rset := by
  unfold rLoop; split <;> (try split) <;> rfl
@[simp] theorem rLoop_wset (s : State) : (rLoop s).wset = s.wset := by
  unfold rLoop; split <;> (try split) <;> rfl
@[simp] theorem rLoop_wpc (s : State) : (rLoop s).wpc = s.wpc := by
  unfold rLoop; split <;> (try split) <;> rfl
@[simp] theorem rLoop_closed (s : State) : (rLoop s).closed = s.closed := by
  unfold rLoop; split <;> (try split) <;> rfl

@[simp] theorem rLoop_mem (s : State) : (rLoop s).mem = s.mem := by
  unfold rLoop; split <;> (try split) <;> rfl
@[simp] theorem rLoop_next (s : State) : (rLoop s).next = s.next := by
  unfold rLoop; split <;> (try split) <;> rfl
@[simp] theorem rLoop_start (s : State) : (rLoop s).start = s.start := by
  unfold rLoop; split <;> (try split) <;> rfl
@[simp] theorem rLoop_wdata (s : State) : (rLoop s).wdata = s.wdata := by
  unfold rLoop; split <;> (try split) <;> rfl
@[simp] theorem rLoop_wn (s : State) : (rLoop s).wn = s.wn := by
  unfold rLoop; split <;> (try split) <;> rfl
@[simp] theorem rLoop_wi (s : State) : (rLoop s).wi = s.wi := by
  unfold rLoop; split <;> (try split) <;> rfl
@[simp] theorem rLoop_wpos (s : State) : (rLoop s).wpos = s.wpos := by
  unfold rLoop; split <;> (try split) <;> rfl
@[simp] theorem rLoop_wstart (s : State) : (rLoop s).wstart = s.wstart := by
  unfold rLoop; split <;> (try split) <;> rfl
@[simp] theorem rLoop_wwrote (s : State) : (rLoop s).wwrote = s.wwrote := by
  unfold rLoop; split <;> (try split) <;> rfl
@[simp] theorem rLoop_put (s : State) : (rLoop s).put = s.put := by
  unfold rLoop; split <;> (try split) <;> rfl
@[simp] theorem rLoop_got (s : State) : (rLoop s).got = s.got := by
  unfold rLoop; split <;> (try split) <;> rfl
@[simp] theorem rLoop_pub (s : State) : (rLoop s).pub = s.pub := by
  unfold rLoop; split <;> (try split) <;> rfl
@[simp] theorem rLoop_rel (s : State) : (rLoop s).rel = s.rel := by
  unfold rLoop; split <;> (try split) <;> rfl
@[simp] theorem rLoop_wrel (s : State) : (rLoop s).wrel = s.wrel := by
  unfold rLoop; split <;> (try split) <;> rfl
@[simp] theorem rLoop_rpub (s : State) : (rLoop s).rpub = s.rpub := by
  unfold rLoop; split <;> (try split) <;> rfl
@[simp] theorem rLoop_wres (s : State) : (rLoop s).wres = s.wres := by
  unfold rLoop; split <;> (try split) <;> rfl
@[simp] theorem rLoop_rres (s : State) : (rLoop s).rres = s.rres := by
  unfold rLoop; split <;> (try split) <;> rfl
@[simp] theorem rLoop_given (s : State) : (rLoop s).given = s.given := by
  unfold rLoop; split <;> (try split) <;> rfl
@[simp] theorem rLoop_taken (s : State) : (rLoop s).taken = s.taken := by
  unfold rLoop; split <;> (try split) <;> rfl
@[simp] theorem rLoop_rorig (s : State) : (rLoop s).rorig = s.rorig := by
  unfold rLoop; split <;> (try split) <;> rfl
@[simp] theorem rLoop_rdst (s : State) : (rLoop s).rdst = s.rdst := by
  unfold rLoop; split <;> (try split) <;> rfl
@[simp] theorem rLoop_rn (s : State) : (rLoop s).rn = s.rn := by
  unfold rLoop; split <;> (try split) <;> rfl
@[simp] theorem rLoop_rpos (s : State) : (rLoop s).rpos = s.rpos := by
  unfold rLoop; split <;> (try split) <;> rfl
@[simp] theorem wLoop_mem (s : State) : (wLoop s).mem = s.mem := by unfold wLoop; split <;> rfl
@[simp] theorem wLoop_next (s : State) : (wLoop s).next = s.next := by unfold wLoop; split <;> rfl
@[simp] theorem wLoop_start (s : State) : (wLoop s).start = s.start := by unfold wLoop; split <;> rfl
@[simp] theorem wLoop_wdata (s : State) : (wLoop s).wdata = s.wdata := by unfold wLoop; split <;> rfl
@[simp] theorem wLoop_wn (s : State) : (wLoop s).wn = s.wn := by unfold wLoop; split <;> rfl
@[simp] theorem wLoop_wi (s : State) : (wLoop s).wi = s.wi := by unfold wLoop; split <;> rfl
@[simp] theorem wLoop_wpos (s : State) : (wLoop s).wpos = s.wpos := by unfold wLoop; split <;> rfl
@[simp] theorem wLoop_wstart (s : State) : (wLoop s).wstart = s.wstart := by unfold wLoop; split <;> rfl
@[simp] theorem wLoop_wwrote (s : State) : (wLoop s).wwrote = s.wwrote := by unfold wLoop; split <;> rfl
@[simp] theorem wLoop_rdst (s : State) : (wLoop s).rdst = s.rdst := by unfold wLoop; split <;> rfl
@[simp] theorem wLoop_rn (s : State) : (wLoop s).rn = s.rn := by unfold wLoop; split <;> rfl
@[simp] theorem wLoop_ri (s : State) : (wLoop s).ri = s.ri := by unfold wLoop; split <;> rfl
@[simp] theorem wLoop_rpos (s : State) : (wLoop s).rpos = s.rpos := by unfold wLoop; split <;> rfl
@[simp] theorem wLoop_rnext (s : State) : (wLoop s).rnext = s.rnext := by unfold wLoop; split <;> rfl
@[simp] theorem wLoop_rread (s : State) : (wLoop s).rread = s.rread := by unfold wLoop; split <;> rfl
@[simp] theorem wLoop_put (s : State) : (wLoop s).put = s.put := by unfold wLoop; split <;> rfl
@[simp] theorem wLoop_got (s : State) : (wLoop s).got = s.got := by unfold wLoop; split <;> rfl
@[simp] theorem wLoop_pub (s : State) : (wLoop s).pub = s.pub := by unfold wLoop; split <;> rfl
@[simp] theorem wLoop_rel (s : State) : (wLoop s).rel = s.rel := by unfold wLoop; split <;> rfl
@[simp] theorem wLoop_wrel (s : State) : (wLoop s).wrel = s.wrel := by unfold wLoop; split <;> rfl
@[simp] theorem wLoop_rpub (s : State) : (wLoop s).rpub = s.rpub := by unfold wLoop; split <;> rfl
@[simp] theorem wLoop_wres (s : State) : (wLoop s).wres = s.wres := by unfold wLoop; split <;> rfl
@[simp] theorem wLoop_rres (s : State) : (wLoop s).rres = s.rres := by unfold wLoop; split <;> rfl
@[simp] theorem wLoop_given (s : State) : (wLoop s).given = s.given := by unfold wLoop; split <;> rfl
@[simp] theorem wLoop_taken (s : State) : (wLoop s).taken = s.taken := by unfold wLoop; split <;> rfl
@[simp] theorem wLoop_rorig (s : State) : (wLoop s).rorig = s.rorig := by unfold wLoop; split <;> rfl
@[simp] theorem rLoop_ri (s : State) : (rLoop s).ri = s.ri := by
  unfold rLoop; split <;> (try split) <;> rfl
@[simp] theorem rLoop_rnext (s : State) : (rLoop s).rnext = s.rnext := by
  unfold rLoop; split <;> (try split) <;> rfl
@[simp] theorem rLoop_rread (s : State) : (rLoop s).rread = s.rread := by
  unfold rLoop; split <;> (try split) <;> rfl

theorem Pair.wLoop {s : State} (h : Pair { s with wpc := .put }) : Pair (wLoop s) := by
  obtain ⟨h1, h2, h3, h4⟩ := h
  unfold Ring.wLoop
  split <;> constructor <;> simp_all [WPc.releasing]

theorem Pair.rLoop {s : State} (h : Pair { s with rpc := .get }) : Pair (rLoop s) := by
  obtain ⟨h1, h2, h3, h4⟩ := h
  unfold Ring.rLoop
  split
  · split <;> constructor <;> simp_all [RPc.releasing]
  · constructor <;> simp_all [RPc.releasing]

theorem Pair.step {N : Nat} {a : Action} {s s' : State} (h : s.closed = false → Pair s)
    (hs : step N a s = some s') (hc : s'.closed = false) : Pair s' := by
  cases a with
  | callW data n =>
    simp only [Ring.step] at hs
    split at hs
    · simp only [Option.some.injEq] at hs
      subst hs
      obtain ⟨h1, h2, h3, h4⟩ := h hc
      constructor <;> simp_all [WPc.releasing]
    · simp at hs
  | callR dst n =>
    simp only [Ring.step] at hs
    split at hs
    · simp only [Option.some.injEq] at hs
      subst hs
      obtain ⟨h1, h2, h3, h4⟩ := h hc
      constructor <;> simp_all [RPc.releasing]
    · simp at hs
  | w =>
    simp only [Ring.step] at hs
    unfold Ring.wStep at hs
    split at hs <;> rename_i hpc
    case h_1 => simp at hs
    case h_3 =>
      simp only [Option.some.injEq] at hs; subst hs
      obtain ⟨h1, h2, h3, h4⟩ := h (by simpa using hc)
      apply Pair.wLoop
      constructor <;> simp_all [WPc.releasing]
    case h_4 =>
      simp only [Option.some.injEq] at hs; subst hs
      split at hc
      · obtain ⟨h1, h2, h3, h4⟩ := h (by simpa using hc)
        rw [if_pos ‹_›]
        constructor <;> simp_all [WPc.releasing]
      · obtain ⟨h1, h2, h3, h4⟩ := h (by simpa using hc)
        rw [if_neg ‹_›]
        apply Pair.wLoop
        constructor <;> simp_all [WPc.releasing]
    case h_8 =>
      simp only [Option.some.injEq] at hs; subst hs
      split at hc
      · obtain ⟨h1, h2, h3, h4⟩ := h (by simpa using hc)
        rw [if_pos ‹_›]
        constructor <;> simp_all [WPc.releasing]
      · obtain ⟨h1, h2, h3, h4⟩ := h (by simpa using hc)
        rw [if_neg ‹_›]
        apply Pair.wLoop
        constructor <;> simp_all [WPc.releasing]
    case h_9 =>
      simp only [Option.some.injEq] at hs; subst hs
      split at hc
      · obtain ⟨h1, h2, h3, h4⟩ := h (by simpa [wWaited] using hc)
        simp_all
      · obtain ⟨h1, h2, h3, h4⟩ := h (by simpa using hc)
        rw [if_neg ‹_›]
        constructor <;> simp_all [WPc.releasing]
    case h_10 =>
      split at hs
      · simp only [Option.some.injEq] at hs; subst hs
        simp_all [wWaited]
      · simp at hs
    all_goals
      (try split at hs) <;> simp only [Option.some.injEq, reduceCtorEq] at hs <;> subst hs <;>
      (try split) <;>
      (try split at hc) <;>
      (obtain ⟨h1, h2, h3, h4⟩ := h (by simpa [wReleased, wReturn] using hc)
       constructor <;> simp_all [WPc.releasing, wReleased, wReturn])
  | r =>
    simp only [Ring.step] at hs
    unfold Ring.rStep at hs
    split at hs <;> rename_i hpc
    case h_1 => simp at hs
    case h_3 =>
      simp only [Option.some.injEq] at hs; subst hs
      obtain ⟨h1, h2, h3, h4⟩ := h (by simpa using hc)
      apply Pair.rLoop
      constructor <;> simp_all [RPc.releasing]
    case h_8 =>
      simp only [Option.some.injEq] at hs; subst hs
      split at hc
      · obtain ⟨h1, h2, h3, h4⟩ := h (by simpa [rWaited] using hc)
        simp_all
      · obtain ⟨h1, h2, h3, h4⟩ := h (by simpa using hc)
        rw [if_neg ‹_›]
        constructor <;> simp_all [RPc.releasing]
    case h_9 =>
      split at hs
      · simp only [Option.some.injEq] at hs; subst hs
        simp_all [rWaited]
      · simp at hs
    case h_10 =>
      simp only [Option.some.injEq] at hs; subst hs
      obtain ⟨h1, h2, h3, h4⟩ := h (by simpa using hc)
      apply Pair.rLoop
      constructor <;> simp_all [RPc.releasing]
    all_goals
      (try split at hs) <;> simp only [Option.some.injEq, reduceCtorEq] at hs <;> subst hs <;>
      (try split) <;>
      (try split at hc) <;>
      (obtain ⟨h1, h2, h3, h4⟩ := h (by simpa [rReturn] using hc)
       constructor <;> simp_all [RPc.releasing, rReturn])
  | handR =>
    simp only [Ring.step] at hs
    split at hs
    · split at hs
      · simp only [Option.some.injEq] at hs
        subst hs
        obtain ⟨h1, h2, h3, h4⟩ := h (by simpa [wReleased, rWaited] using hc)
        constructor <;> simp_all [wReleased, rWaited, WPc.releasing, RPc.releasing]
      · split at hs
        · simp only [Option.some.injEq] at hs
          subst hs
          obtain ⟨h1, h2, h3, h4⟩ := h (by simpa [wReturn, rWaited] using hc)
          constructor <;> simp_all [wReturn, rWaited, WPc.releasing, RPc.releasing]
        · simp at hs
    · simp at hs
  | handW =>
    simp only [Ring.step] at hs
    split at hs
    · split at hs
      · simp only [Option.some.injEq] at hs
        subst hs
        obtain ⟨h1, h2, h3, h4⟩ := h (by simpa [wWaited] using hc)
        apply Pair.wLoop
        constructor <;> simp_all [WPc.releasing, RPc.releasing]
      · split at hs
        · simp only [Option.some.injEq] at hs
          subst hs
          obtain ⟨h1, h2, h3, h4⟩ := h (by simpa [wWaited, rReturn] using hc)
          apply Pair.wLoop
          constructor <;> simp_all [rReturn, WPc.releasing, RPc.releasing]
        · simp at hs
    · simp at hs
  | close =>
    simp only [Ring.step, Option.some.injEq] at hs
    subst hs
    simp at hc

theorem Reach.pair {N : Nat} {ok : State → Action → Prop} {s : State} (h : Reach N ok s)
    (hc : s.closed = false) : Pair s :=
  Reach.inv (P := fun s => s.closed = false → Pair s) (fun _ => Pair.init)
    (fun _ _ _ _ hp _ hst hcl => Pair.step hp hst hcl) h hc

end Kafka.Ring
