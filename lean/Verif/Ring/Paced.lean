import Verif.Ring.Fifo
import Verif.Ring.Calls
import Verif.Ring.Close
/-!
Simple conditions on schedules under which the pacing of `Verif.Ring.Fifo` holds.
-/
set_option linter.unusedSimpArgs false
namespace Kafka.Ring

/-- Whenever one side is woken, the rest of its call can proceed: enough bytes are published for
the reader, enough space is free for the writer; and the buffer is not closed. -/
def WokenReady (N : Nat) (s : State) : Action → Prop
  | .handR => s.got.length + (s.rn - s.ri) ≤ s.pub
  | .handW => s.put.length + (s.wn - (s.wi + 1)) + 2 ≤ s.rel + N
  | .close => False
  | _ => True

structure Ready (N : Nat) (s : State) : Prop where
  open_ : s.closed = false
  w : s.wres = true → s.wpc.looping = true → s.put.length + (s.wn - s.wpc.wrote s.wi s.wn) + 2 ≤ s.rel + N
  r : s.rres = true → s.rpc.looping = true → s.got.length + (s.rn - s.ri) ≤ s.pub

theorem Ready.paced {N : Nat} {s : State} (h : Ready N s) (hc : Calls s) (a : Action) : Paced N s a := by
  cases a <;> try trivial
  · intro h1 h2
    unfold Room
    rcases h2 with h2 | h2
    · have := h.w h1 (by simp [h2, WPc.looping]); omega
    · have := h.w h1 (by simp [h2, WPc.looping]); omega
  · intro h1 h2
    unfold Data
    have := h.r h1 (by simp [h2, RPc.looping])
    have := hc.rbody (by simp [h2, RPc.inBody])
    omega

theorem Ready.init {N : Nat} : Ready N init := by
  constructor <;> simp [Ring.init]

theorem Ready.wLoop {N : Nat} {s : State} (h1 : s.closed = false)
    (h2 : s.wres = true → s.put.length + (s.wn - s.wi) + 2 ≤ s.rel + N)
    (h3 : s.rres = true → s.rpc.looping = true → s.got.length + (s.rn - s.ri) ≤ s.pub) : Ready N (wLoop s) := by
  unfold Ring.wLoop
  split
  · exact ⟨h1, fun hw _ => h2 hw, h3⟩
  · refine ⟨h1, fun hw _ => ?_, h3⟩
    have := h2 hw
    simp only [WPc.wrote]
    omega

theorem Ready.rLoop {N : Nat} {s : State} (h1 : s.closed = false)
    (h2 : s.wres = true → s.wpc.looping = true → s.put.length + (s.wn - s.wpc.wrote s.wi s.wn) + 2 ≤ s.rel + N)
    (h3 : s.rres = true → s.got.length + (s.rn - s.ri) ≤ s.pub) : Ready N (rLoop s) := by
  unfold Ring.rLoop
  split
  · split <;> exact ⟨h1, h2, fun hr _ => h3 hr⟩
  · exact ⟨h1, h2, fun hr _ => h3 hr⟩

theorem Ready.wStep {N : Nat} {s s' : State} (h : Ready N s) (hp : Pos N s) (hpair : Pair s) (hc : Calls s)
    (hs : wStep N s = some s') : Ready N s' := by
  have h1 := h.open_
  have h2 := h.w
  have h3 := h.r
  have hpub := hp.pub_le
  have hb := hc.wbody
  have hset := hpair.wset
  unfold Ring.wStep at hs
  split at hs <;> rename_i hpc <;> simp only [hpc, WPc.looping, WPc.wrote, WPc.after, forall_const, Bool.false_eq_true, false_implies, true_or, or_true, reduceCtorEq, or_false] at h2 hb
  case h_1 => simp at hs
  all_goals (try simp only [Option.some.injEq] at hs)
  case h_2 => subst hs; exact ⟨h1, by simp [WPc.looping], h3⟩
  case h_3 => subst hs; exact Ready.wLoop h1 (by simp) h3
  case h_4 =>
    subst hs
    split
    · refine ⟨h1, fun hw _ => ?_, h3⟩
      have := h2 hw
      simp only [WPc.wrote, List.length_append, List.length_singleton]
      omega
    · refine Ready.wLoop h1 (fun hw => ?_) h3
      have := h2 hw
      simp only [List.length_append, List.length_singleton]
      omega
  case h_5 =>
    subst hs
    exact ⟨h1, fun hw _ => h2 hw, fun hr hl => Nat.le_trans (h3 hr hl) hpub⟩
  case h_6 =>
    subst hs
    split <;> exact ⟨h1, fun hw _ => h2 hw, h3⟩
  case h_7 => simp [h1] at hs
  case h_8 =>
    subst hs
    split
    · exact ⟨h1, by simp, h3⟩
    · exact Ready.wLoop h1 (by simp) h3
  case h_9 =>
    subst hs
    rw [if_neg (by intro hh; have := (hset.1 hh).1; simp [hpc] at this)]
    exact ⟨h1, fun hw _ => h2 hw, h3⟩
  case h_10 => simp [h1] at hs
  case h_11 =>
    subst hs
    split
    · refine ⟨h1, fun hw _ => h2 hw, fun hr hl => Nat.le_trans (h3 hr hl) hpub⟩
    · exact ⟨h1, by simp [wReturn, WPc.looping], fun hr hl => Nat.le_trans (h3 hr hl) hpub⟩
  case h_12 =>
    subst hs
    split
    · exact ⟨h1, fun hw _ => h2 hw, h3⟩
    · exact ⟨h1, by simp [wReturn, WPc.looping], h3⟩
  case h_13 => simp [h1] at hs

theorem Ready.rStep {N : Nat} {s s' : State} (h : Ready N s) (hp : Pos N s) (hpair : Pair s) (hc : Calls s)
    (hs : rStep N s = some s') : Ready N s' := by
  have h1 := h.open_
  have h2 := h.w
  have h3 := h.r
  have hrel := hp.rel_le
  have hb := hc.rbody
  have hset := hpair.rset
  have h2' : s.wres = true → s.wpc.looping = true → s.put.length + (s.wn - s.wpc.wrote s.wi s.wn) + 2 ≤ s.got.length + N :=
    fun hw hl => by have := h2 hw hl; omega
  unfold Ring.rStep at hs
  split at hs <;> rename_i hpc <;> simp only [hpc, RPc.looping, RPc.inBody, forall_const, Bool.false_eq_true, false_implies, true_or, or_true, reduceCtorEq, or_false] at h3 hb
  case h_1 => simp at hs
  all_goals (try simp only [Option.some.injEq] at hs)
  case h_2 => subst hs; exact ⟨h1, h2, by simp [RPc.looping]⟩
  case h_3 => subst hs; exact Ready.rLoop h1 h2 (by simp)
  case h_4 =>
    subst hs
    split <;> exact ⟨h1, h2', fun hr _ => h3 hr⟩
  case h_5 =>
    subst hs
    split <;> exact ⟨h1, h2, fun hr _ => h3 hr⟩
  case h_6 => simp [h1] at hs
  case h_7 =>
    subst hs
    split <;> exact ⟨h1, h2, by simp⟩
  case h_8 =>
    subst hs
    rw [if_neg (by intro hh; have := (hset.1 hh).1; simp [hpc] at this)]
    exact ⟨h1, h2, fun hr _ => h3 hr⟩
  case h_9 => simp [h1] at hs
  case h_10 =>
    subst hs
    refine Ready.rLoop h1 h2 (fun hr => ?_)
    have := h3 hr
    simp only [List.length_append, List.length_singleton]
    omega
  case h_11 =>
    subst hs
    split
    · exact ⟨h1, h2', fun hr _ => h3 hr⟩
    · exact ⟨h1, h2', by simp [rReturn, RPc.looping]⟩
  case h_12 =>
    subst hs
    split
    · exact ⟨h1, h2, fun hr _ => h3 hr⟩
    · exact ⟨h1, h2, by simp [rReturn, RPc.looping]⟩
  case h_13 => simp [h1] at hs

theorem Ready.step {N : Nat} {a : Action} {s s' : State} (h : Ready N s) (hp : Pos N s) (hpair : Pair s)
    (hc : Calls s) (hok : WokenReady N s a) (hs : step N a s = some s') : Ready N s' := by
  cases a with
  | w => exact h.wStep hp hpair hc hs
  | r => exact h.rStep hp hpair hc hs
  | callW data n =>
    simp only [Ring.step] at hs
    split at hs
    · simp only [Option.some.injEq] at hs; subst hs
      exact ⟨h.open_, by simp [WPc.looping], h.r⟩
    · simp at hs
  | callR dst n =>
    simp only [Ring.step] at hs
    split at hs
    · simp only [Option.some.injEq] at hs; subst hs
      exact ⟨h.open_, h.w, by simp [RPc.looping]⟩
    · simp at hs
  | handR =>
    simp only [Ring.step] at hs
    split at hs
    · split at hs
      · rename_i hw
        simp only [Option.some.injEq] at hs; subst hs
        refine ⟨h.open_, fun hr _ => ?_, fun _ _ => hok⟩
        have := h.w hr (by simp [hw, WPc.looping])
        simpa [hw, WPc.wrote, wReleased, rWaited] using this
      · split at hs
        · simp only [Option.some.injEq] at hs; subst hs
          exact ⟨h.open_, by simp [wReturn, WPc.looping], fun _ _ => hok⟩
        · simp at hs
    · simp at hs
  | handW =>
    simp only [Ring.step] at hs
    split at hs
    · split at hs
      · rename_i hr
        simp only [Option.some.injEq] at hs; subst hs
        refine Ready.wLoop h.open_ (fun _ => hok) (fun hh _ => ?_)
        exact h.r hh (by simp [hr, RPc.looping])
      · split at hs
        · simp only [Option.some.injEq] at hs; subst hs
          exact Ready.wLoop h.open_ (fun _ => hok) (by simp [rReturn, RPc.looping])
        · simp at hs
    · simp at hs
  | close => exact hok.elim

theorem Reach.ready {N : Nat} (hN : 0 < N) {s : State} (h : Reach N (WokenReady N) s) : Ready N s :=
  Reach.inv Ready.init (fun _ _ _ hr hf ho hst =>
    hf.step (hr.pos hN) (hr.pair hf.open_) hr.calls ho hst) h

/-- Schedules in which every woken side can finish are paced. -/
theorem Reach.paced {N : Nat} (hN : 0 < N) {s : State} (h : Reach N (WokenReady N) s) :
    Reach N (Paced N) s := by
  induction h with
  | init => exact .init
  | step a h1 h2 h3 ih => exact .step a ih ((h1.ready hN).paced h1.calls a) h3

/-- Schedules in which nobody is handed over to and nobody closes are paced. -/
theorem Reach.paced_of_noWait {N : Nat} (hN : 0 < N) {s : State}
    (h : Reach N (fun _ a => a ≠ .handR ∧ a ≠ .handW ∧ a ≠ .close) s) : Reach N (Paced N) s := by
  refine Reach.paced hN ?_
  induction h with
  | init => exact .init
  | step a h1 h2 h3 ih =>
    refine .step a ih ?_ h3
    obtain ⟨ha, hb, hc⟩ := h2
    cases a <;> first | trivial | contradiction

end Kafka.Ring
