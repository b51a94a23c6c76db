import Verif.Ring.Calls
/-!
The ring buffer as a queue, in schedules in which a goroutine that has returned from `Wait`
does not run ahead of the other one.
-/
set_option linter.unusedSimpArgs false
namespace Kafka.Ring

/-- `r.put.length + 2 ≤ r.rel + N`: a byte can be put and the position after it is still not
the one before `r.start`. -/
def Room (N : Nat) (s : State) : Prop := s.put.length + 2 ≤ s.rel + N

/-- A byte is published that has not been read. -/
def Data (s : State) : Prop := s.got.length < s.pub

/-- A goroutine that has returned from `Wait` and not looked at the other side's position
since only goes on when there is room, respectively data.  Nothing is asked of goroutines
that have not returned from `Wait`. -/
def Paced (N : Nat) (s : State) : Action → Prop
  | .w => s.wres = true → s.wpc = .put ∨ s.wpc = .fstore → Room N s
  | .r => s.rres = true → s.rpc = .get → Data s
  | _ => True

def WPc.between : WPc → Bool
  | .idle | .load1 | .load2 | .frelCas | .frelRecv => true
  | _ => false

structure Fifo (N : Nat) (s : State) : Prop where
  got_le : s.got.length ≤ s.pub
  room : s.put.length + 1 ≤ s.rel + N
  content : ∀ k, s.got.length ≤ k → k < s.put.length → s.mem (k % N) = s.put.getD k 0
  pre : s.got <+: s.put
  wput : s.wpc = .put ∨ s.wpc = .fstore → s.wres = false → s.put.length + 2 ≤ s.wrel + N
  widle : s.wpc.between → s.put.length + 2 ≤ s.rel + N
  rget : s.rpc = .get → s.rres = false → s.got.length < s.rpub
  rle : s.rpc.looping → s.rres = false → s.got.length ≤ s.rpub

theorem Fifo.init {N : Nat} (hN : 2 ≤ N) : Fifo N init := by
  constructor <;> simp [Ring.init, RPc.looping] <;> omega

theorem Fifo.wLoop {N : Nat} {s : State} (h : Fifo N { s with wpc := .store })
    (hw : s.wres = false → s.put.length + 2 ≤ s.wrel + N) : Fifo N (wLoop s) := by
  obtain ⟨h1, h2, h3, h4, h5, h6, h7, h8⟩ := h
  unfold Ring.wLoop
  split <;> constructor <;> first | assumption | simp_all [WPc.between]

theorem Fifo.wStep {N : Nat} (hN : 2 ≤ N) {s s' : State} (h : Fifo N s) (hp : Pos N s)
    (hok : Paced N s .w) (hs : wStep N s = some s') : Fifo N s' := by
  obtain ⟨h1, h2, h3, h4, h5, h6, h7, h8⟩ := h
  unfold Ring.wStep at hs
  split at hs <;> rename_i hpc <;> simp only [hpc, WPc.between, forall_const, Bool.false_eq_true, reduceCtorEq, or_false, or_true, true_or, false_implies] at h5 h6
  case h_1 => simp at hs
  all_goals (try simp only [Option.some.injEq] at hs)
  case h_2 =>
    subst hs
    constructor <;> first | assumption | simp_all [WPc.between]
  case h_3 =>
    subst hs
    apply Fifo.wLoop
    · constructor <;> first | assumption | simp_all [WPc.between]
    · intro _; exact h6
  case h_4 =>
    subst hs
    have hroom : s.put.length + 2 ≤ s.rel + N := by
      cases hw : s.wres
      · have := h5 hw
        have := hp.wrel_le
        omega
      · exact hok hw (Or.inl hpc)
    have hpos := hp.wpos (by rw [hpc]; rfl)
    have hst := hp.wstart (by rw [hpc]; rfl)
    have hrel := hp.rel_le
    have hpl := hp.pub_le
    have hcontent : ∀ k, s.got.length ≤ k → k < (s.put ++ [s.wdata.getD s.wi 0]).length →
        (if k % N = s.wpos then s.wdata.getD s.wi 0 else s.mem (k % N)) =
          (s.put ++ [s.wdata.getD s.wi 0]).getD k 0 := by
      intro k hk1 hk2
      rw [List.length_append, List.length_singleton] at hk2
      by_cases hk : k = s.put.length
      · subst hk
        rw [if_pos hpos.symm]
        simp [List.getD]
      · rw [if_neg]
        · rw [h3 k hk1 (by omega)]
          simp only [List.getD]
          rw [List.getElem?_append_left (by omega)]
        · rw [hpos]
          intro hc
          exact hk (mod_inj (by omega) (by omega) hc)
    have hpre : s.got <+: s.put ++ [s.wdata.getD s.wi 0] := h4.trans (List.prefix_append _ _)
    split
    · constructor <;> first | assumption | simp_all [WPc.between]; try omega
    · rename_i hne
      apply Fifo.wLoop
      · constructor <;> first | assumption | simp_all [WPc.between]; try omega
      · intro hw
        simp only at hw
        have h5' := h5 hw
        rw [hpos, incr_mod (by omega), incr_mod (by omega), hst] at hne
        simp only [List.length_append, List.length_singleton]
        have : s.put.length + 1 + 1 ≠ s.wrel + N := by
          intro hc
          apply hne
          rw [hc, Nat.add_mod_right]
        omega
  case h_5 =>
    subst hs
    have := hp.pub_le
    constructor <;> first | assumption | simp_all [WPc.between]; try omega
  case h_6 =>
    subst hs
    unfold wReleased
    split <;> constructor <;> first | assumption | simp_all [WPc.between]
  case h_7 =>
    split at hs
    · simp only [Option.some.injEq] at hs
      subst hs
      unfold wReleased
      constructor <;> first | assumption | simp_all [WPc.between]
    · simp at hs
  case h_8 =>
    subst hs
    split
    · constructor <;> first | assumption | simp_all [WPc.between]
    · rename_i hne
      apply Fifo.wLoop
      · constructor <;> first | assumption | simp_all [WPc.between]
      · intro _
        rw [hp.wpos (by rw [hpc]; rfl), incr_mod (by omega), hp.start] at hne
        simp only
        have : s.put.length + 1 ≠ s.rel + N := by
          intro hc
          apply hne
          rw [hc, Nat.add_mod_right]
        omega
  case h_9 =>
    subst hs
    split
    · apply Fifo.wLoop
      · constructor <;> first | assumption | simp_all [WPc.between]
      · simp
    · constructor <;> first | assumption | simp_all [WPc.between]
  case h_10 =>
    split at hs
    · simp only [Option.some.injEq] at hs
      subst hs
      apply Fifo.wLoop
      · constructor <;> first | assumption | simp_all [WPc.between]
      · simp
    · simp at hs
  case h_11 =>
    subst hs
    have hroom : s.put.length + 2 ≤ s.rel + N := by
      cases hw : s.wres
      · have := h5 hw
        have := hp.wrel_le
        omega
      · exact hok hw (Or.inr hpc)
    have := hp.pub_le
    unfold wReturn
    split <;> constructor <;> first | assumption | simp_all [WPc.between]; try omega
  case h_12 =>
    subst hs
    unfold wReturn
    split <;> constructor <;> first | assumption | simp_all [WPc.between]
  case h_13 =>
    unfold wReturn at hs
    split at hs
    · simp only [Option.some.injEq] at hs
      subst hs
      constructor <;> first | assumption | simp_all [WPc.between]
    · simp at hs

theorem prefix_snoc {l m : List Byte} (h : l <+: m) (hl : l.length < m.length) :
    l ++ [m.getD l.length 0] <+: m := by
  obtain ⟨t, rfl⟩ := h
  cases t with
  | nil => simp at hl
  | cons x t => exact ⟨t, by simp [List.getD]⟩

theorem Fifo.rLoop {N : Nat} {s : State} (hrpos : s.rpos = s.got.length % N)
    (hrnext : s.rnext = s.rpub % N)
    (hrp : s.rres = false → s.got.length ≤ s.rpub)
    (h : Fifo N { s with rpc := .store }) : Fifo N (rLoop s) := by
  obtain ⟨h1, h2, h3, h4, h5, h6, h7, h8⟩ := h
  unfold Ring.rLoop
  split
  · split
    · constructor <;> first | assumption | simp_all [RPc.looping]
    · rename_i hne
      constructor <;> first | assumption | skip
      intro _ hr
      have := hrp hr
      rw [hrpos, hrnext] at hne
      simp only at hr ⊢
      by_cases heq : s.got.length = s.rpub
      · rw [heq] at hne; exact absurd rfl hne
      · omega
  · constructor <;> first | assumption | simp_all [RPc.looping]

theorem Fifo.rStep {N : Nat} (hN : 2 ≤ N) {s s' : State} (h : Fifo N s) (hp : Pos N s)
    (hok : Paced N s .r) (hs : rStep N s = some s') : Fifo N s' := by
  have hpos := hp.rpos
  have hnext := hp.rnext
  have hrel := hp.rel_le
  obtain ⟨h1, h2, h3, h4, h5, h6, h7, h8⟩ := h
  unfold Ring.rStep at hs
  split at hs <;> rename_i hpc <;> simp only [hpc, RPc.looping, RPc.loaded, forall_const, Bool.false_eq_true, reduceCtorEq, false_implies] at h7 h8 hpos hnext
  case h_1 => simp at hs
  all_goals (try simp only [Option.some.injEq] at hs)
  case h_2 =>
    subst hs
    constructor <;> first | assumption | simp_all [RPc.looping]
  case h_3 =>
    subst hs
    apply Fifo.rLoop
    · exact hpos
    · exact hp.next
    · intro _; exact h1
    · constructor <;> first | assumption | simp_all [RPc.looping]
  case h_4 =>
    subst hs
    split <;> constructor <;> first | assumption | simp_all [RPc.looping]; try (first | omega | (intro hb; have := h6 hb; omega))
  case h_5 =>
    subst hs
    split <;> constructor <;> first | assumption | simp_all [RPc.looping]
  case h_6 =>
    split at hs
    · simp only [Option.some.injEq] at hs
      subst hs
      constructor <;> first | assumption | simp_all [RPc.looping]
    · simp at hs
  case h_7 =>
    subst hs
    split
    · constructor <;> first | assumption | simp_all [RPc.looping]
    · rename_i hne
      have : s.got.length ≠ s.pub := by
        intro hc
        apply hne
        rw [hpos, hp.next, hc]
      constructor <;> first | assumption | simp_all [RPc.looping]; try omega
  case h_8 =>
    subst hs
    unfold rWaited
    split <;> constructor <;> first | assumption | simp_all [RPc.looping]
  case h_9 =>
    unfold rWaited at hs
    split at hs
    · simp only [Option.some.injEq] at hs
      subst hs
      constructor <;> first | assumption | simp_all [RPc.looping]
    · simp at hs
  case h_10 =>
    subst hs
    have hdata : s.got.length < s.pub := by
      cases hw : s.rres
      · have := h7 hw
        have := hp.rpub_le
        omega
      · exact hok hw hpc
    have hpl := hp.pub_le
    have hb : s.mem s.rpos = s.put.getD s.got.length 0 := by
      rw [hpos]; exact h3 _ (Nat.le_refl _) (by omega)
    apply Fifo.rLoop
    · simp only [List.length_append, List.length_singleton]
      rw [hpos, incr_mod (by omega)]
    · exact hnext
    · intro hr
      simp only at hr
      simp only [List.length_append, List.length_singleton]
      have := h7 hr
      omega
    · constructor <;> try first | assumption | (simp only [List.length_append, List.length_singleton]; omega) | (simp; done)
      · intro k hk1 hk2
        simp only [List.length_append, List.length_singleton] at hk1
        exact h3 k (by omega) hk2
      · simp only; rw [hb]; exact prefix_snoc h4 (by omega)
      · intro _ hr
        simp only at hr
        simp only [List.length_append, List.length_singleton]
        have := h7 hr
        omega
  case h_11 =>
    subst hs
    unfold rReturn
    split <;> constructor <;> first | assumption | simp_all [RPc.looping]; try (first | omega | (intro hb; have := h6 hb; omega))
  case h_12 =>
    subst hs
    unfold rReturn
    split <;> constructor <;> first | assumption | simp_all [RPc.looping]
  case h_13 =>
    unfold rReturn at hs
    split at hs
    · simp only [Option.some.injEq] at hs
      subst hs
      constructor <;> first | assumption | simp_all [RPc.looping]
    · simp at hs

theorem Fifo.step {N : Nat} (hN : 2 ≤ N) {a : Action} {s s' : State} (h : Fifo N s) (hp : Pos N s)
    (hok : Paced N s a) (hs : step N a s = some s') : Fifo N s' := by
  cases a with
  | callW data n =>
    obtain ⟨h1, h2, h3, h4, h5, h6, h7, h8⟩ := h
    simp only [Ring.step] at hs
    split at hs
    · rename_i hc
      simp only [Option.some.injEq] at hs
      subst hs
      simp only [hc.1] at h6
      constructor <;> first | assumption | simp_all [WPc.between]
    · simp at hs
  | callR dst n =>
    obtain ⟨h1, h2, h3, h4, h5, h6, h7, h8⟩ := h
    simp only [Ring.step] at hs
    split at hs
    · simp only [Option.some.injEq] at hs
      subst hs
      constructor <;> first | assumption | simp_all [RPc.looping]
    · simp at hs
  | w => exact h.wStep hN hp hok hs
  | r => exact h.rStep hN hp hok hs
  | handR =>
    obtain ⟨h1, h2, h3, h4, h5, h6, h7, h8⟩ := h
    simp only [Ring.step] at hs
    split at hs
    · split at hs
      · simp only [Option.some.injEq] at hs
        subst hs
        constructor <;> first | assumption | simp_all [wReleased, rWaited, WPc.between]
      · split at hs
        · rename_i hw
          simp only [hw] at h6
          simp only [Option.some.injEq] at hs
          subst hs
          constructor <;> first | assumption | simp_all [wReturn, rWaited, WPc.between]
        · simp at hs
    · simp at hs
  | handW =>
    obtain ⟨h1, h2, h3, h4, h5, h6, h7, h8⟩ := h
    simp only [Ring.step] at hs
    split at hs
    · split at hs
      · rename_i hr
        simp only [hr] at h8
        simp only [Option.some.injEq] at hs
        subst hs
        apply Fifo.wLoop
        · constructor <;> first | assumption | simp_all [WPc.between, RPc.looping]
        · simp
      · split at hs
        · simp only [Option.some.injEq] at hs
          subst hs
          apply Fifo.wLoop
          · constructor <;> first | assumption | simp_all [WPc.between, rReturn, RPc.looping]
          · simp
        · simp at hs
    · simp at hs
  | close =>
    obtain ⟨h1, h2, h3, h4, h5, h6, h7, h8⟩ := h
    simp only [Ring.step, Option.some.injEq] at hs
    subst hs
    constructor <;> assumption

theorem Reach.fifo {N : Nat} (hN : 2 ≤ N) {ok : State → Action → Prop}
    (hok : ∀ s a, ok s a → Paced N s a) {s : State} (h : Reach N ok s) : Fifo N s :=
  Reach.inv (Fifo.init hN) (fun _ _ _ hr hf ho hst => hf.step hN (hr.pos (by omega)) (hok _ _ ho) hst) h

end Kafka.Ring
