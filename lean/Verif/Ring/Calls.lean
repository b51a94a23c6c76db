import Verif.Ring.Pos
/-!
What the calls have done with the caller's bytes, in every schedule whatsoever.
-/
set_option linter.unusedSimpArgs false
namespace Kafka.Ring

/-- Bytes of the current `WriteN` call that have been put. -/
def WPc.wrote (i n : Nat) : WPc → Nat
  | .idle => n
  | .load1 | .load2 => 0
  | .put => i
  | .store | .relCas | .relRecv | .reload | .waitCas | .waitSend => i + 1
  | .fstore | .frelCas | .frelRecv => n

/-- Bytes of the current `ReadN` call that have been read. -/
def RPc.read (i : Nat) : RPc → Nat
  | .idle | .load1 | .load2 => 0
  | _ => i

structure Calls (s : State) : Prop where
  wbody : s.wpc.after ∨ s.wpc = .put → s.wi < s.wn
  wlen : s.wn ≤ s.wdata.length
  given : s.given = s.put ++ (s.wdata.take s.wn).drop (s.wpc.wrote s.wi s.wn)
  rbody : s.rpc.inBody → s.ri < s.rn
  rend : s.rpc.ending → s.ri = s.rn
  rlen : s.rn ≤ s.rdst.length
  rorig : s.rdst.drop s.rn = s.rorig.drop s.rn
  taken : s.got = s.taken ++ s.rdst.take (s.rpc.read s.ri)
  rread : s.rpc.looping → s.rread = s.ri

theorem Calls.init : Calls init := by
  constructor <;> simp [Ring.init, RPc.inBody, RPc.ending, WPc.after, RPc.read]

theorem drop_eq_getD_cons {l : List Byte} {i : Nat} (h : i < l.length) :
    l.drop i = l.getD i 0 :: l.drop (i + 1) := by
  rw [List.drop_eq_getElem_cons h]
  congr 1
  simp [List.getD, h]

theorem drop_take_cons {l : List Byte} {i n : Nat} (h : i < n) (h2 : n ≤ l.length) :
    (l.take n).drop i = l.getD i 0 :: (l.take n).drop (i + 1) := by
  rw [drop_eq_getD_cons (by rw [List.length_take]; omega)]
  congr 1
  simp only [List.getD]
  rw [List.getElem?_take, if_pos h]

/-- Entering the loop of `WriteN` after `wi` bytes. -/
theorem Calls.wLoop {s : State} (hi : s.wi ≤ s.wn) (_ : s.wn ≤ s.wdata.length)
    (hg : s.given = s.put ++ (s.wdata.take s.wn).drop s.wi)
    (h : Calls { s with wpc := .frelCas, given := s.put ++ (s.wdata.take s.wn).drop s.wn }) :
    Calls (wLoop s) := by
  obtain ⟨h1, h2, h3, h4, h5, h6, h7, h8, h9⟩ := h
  unfold Ring.wLoop
  split
  · constructor <;> first | assumption | simp_all [WPc.after, WPc.wrote]
  · have : s.wi = s.wn := by omega
    constructor <;> first | assumption | simp_all [WPc.after, WPc.wrote]

theorem Calls.rLoop {s : State} (hi : s.ri ≤ s.rn)
    (h : Calls { s with rpc := .frelCas, ri := s.rn, got := s.taken ++ s.rdst.take s.rn, rread := s.rn })
    (hg : s.got = s.taken ++ s.rdst.take s.ri) (hr : s.rread = s.ri) :
    Calls (rLoop s) := by
  obtain ⟨h1, h2, h3, h4, h5, h6, h7, h8, h9⟩ := h
  unfold Ring.rLoop
  split
  · split <;> constructor <;> first | assumption | simp_all [RPc.inBody, RPc.ending, RPc.read]
  · have : s.ri = s.rn := by omega
    constructor <;> first | assumption | simp_all [RPc.inBody, RPc.ending, RPc.read]

theorem Calls.wStep {N : Nat} {s s' : State} (h : Calls s) (hs : wStep N s = some s') : Calls s' := by
  obtain ⟨h1, h2, h3, h4, h5, h6, h7, h8, h9⟩ := h
  unfold Ring.wStep at hs
  split at hs <;> rename_i hpc <;> simp only [hpc, WPc.after, WPc.wrote, true_or, or_true, forall_const, Bool.false_eq_true, false_or, reduceCtorEq, false_implies] at h1 h3
  case h_1 => simp at hs
  all_goals (try simp only [Option.some.injEq] at hs)
  case h_2 =>
    subst hs
    constructor <;> first | assumption | simp_all [WPc.after, WPc.wrote]
  case h_3 =>
    subst hs
    apply Calls.wLoop
    · simp
    · exact h2
    · exact h3
    · constructor <;> first | assumption | simp_all [WPc.after, WPc.wrote]
  case h_4 =>
    subst hs
    rw [drop_take_cons h1 h2] at h3
    split
    · constructor <;> first | assumption | simp_all [WPc.after, WPc.wrote]
    · apply Calls.wLoop
      · exact h1
      · exact h2
      · simp_all
      · constructor <;> first | assumption | simp_all [WPc.after, WPc.wrote]
  case h_5 =>
    subst hs
    constructor <;> first | assumption | simp_all [WPc.after, WPc.wrote]
  case h_6 =>
    subst hs
    unfold wReleased
    split <;> constructor <;> first | assumption | simp_all [WPc.after, WPc.wrote]
  case h_7 =>
    split at hs
    · simp only [Option.some.injEq] at hs
      subst hs
      unfold wReleased
      constructor <;> first | assumption | simp_all [WPc.after, WPc.wrote]
    · simp at hs
  case h_8 =>
    subst hs
    split
    · constructor <;> first | assumption | simp_all [WPc.after, WPc.wrote]
    · apply Calls.wLoop
      · exact h1
      · exact h2
      · simp_all
      · constructor <;> first | assumption | simp_all [WPc.after, WPc.wrote]
  case h_9 =>
    subst hs
    split
    · apply Calls.wLoop
      · exact h1
      · exact h2
      · simp_all
      · constructor <;> first | assumption | simp_all [WPc.after, WPc.wrote]
    · constructor <;> first | assumption | simp_all [WPc.after, WPc.wrote]
  case h_10 =>
    split at hs
    · simp only [Option.some.injEq] at hs
      subst hs
      apply Calls.wLoop
      · exact h1
      · exact h2
      · simp_all
      · constructor <;> first | assumption | simp_all [WPc.after, WPc.wrote]
    · simp at hs
  case h_11 =>
    subst hs
    unfold wReturn
    split <;> constructor <;> first | assumption | simp_all [WPc.after, WPc.wrote]
  case h_12 =>
    subst hs
    unfold wReturn
    split <;> constructor <;> first | assumption | simp_all [WPc.after, WPc.wrote]
  case h_13 =>
    unfold wReturn at hs
    split at hs
    · simp only [Option.some.injEq] at hs
      subst hs
      constructor <;> first | assumption | simp_all [WPc.after, WPc.wrote]
    · simp at hs

theorem Calls.rStep {N : Nat} {s s' : State} (h : Calls s) (hs : rStep N s = some s') : Calls s' := by
  obtain ⟨h1, h2, h3, h4, h5, h6, h7, h8, h9⟩ := h
  unfold Ring.rStep at hs
  split at hs <;> rename_i hpc <;> simp only [hpc, RPc.inBody, RPc.ending, RPc.read, RPc.looping, forall_const, Bool.false_eq_true, false_implies] at h4 h5 h8 h9
  case h_1 => simp at hs
  all_goals (try simp only [Option.some.injEq] at hs)
  case h_2 =>
    subst hs
    constructor <;> first | assumption | simp_all [RPc.inBody, RPc.ending, RPc.read, RPc.looping]
  case h_3 =>
    subst hs
    apply Calls.rLoop
    · simp
    · constructor <;> first | assumption | simp_all [RPc.inBody, RPc.ending, RPc.read, RPc.looping]
    · simp_all
    · simp_all
  case h_4 =>
    subst hs
    split <;> constructor <;> first | assumption | simp_all [RPc.inBody, RPc.ending, RPc.read, RPc.looping]
  case h_5 =>
    subst hs
    split <;> constructor <;> first | assumption | simp_all [RPc.inBody, RPc.ending, RPc.read, RPc.looping]
  case h_6 =>
    split at hs
    · simp only [Option.some.injEq] at hs
      subst hs
      constructor <;> first | assumption | simp_all [RPc.inBody, RPc.ending, RPc.read, RPc.looping]
    · simp at hs
  case h_7 =>
    subst hs
    split <;> constructor <;> first | assumption | simp_all [RPc.inBody, RPc.ending, RPc.read, RPc.looping]
  case h_8 =>
    subst hs
    unfold rWaited
    split <;> constructor <;> first | assumption | simp_all [RPc.inBody, RPc.ending, RPc.read, RPc.looping]
  case h_9 =>
    unfold rWaited at hs
    split at hs
    · simp only [Option.some.injEq] at hs
      subst hs
      constructor <;> first | assumption | simp_all [RPc.inBody, RPc.ending, RPc.read, RPc.looping]
    · simp at hs
  case h_10 =>
    subst hs
    apply Calls.rLoop
    · exact h4
    · constructor <;> first | assumption | (simp_all [RPc.inBody, RPc.ending, RPc.read, RPc.looping]; done) | skip
      · simp only; rw [List.drop_set, if_pos h4, h7]
    · simp only
      rw [h8, List.append_assoc]
      congr 1
      have hlt : s.ri < s.rdst.length := by omega
      rw [List.take_add_one, List.getElem?_set_self hlt, List.take_set, List.set_eq_of_length_le (by simp; omega)]
      rfl
    · simp_all
  case h_11 =>
    subst hs
    unfold rReturn
    split <;> constructor <;> first | assumption | simp_all [RPc.inBody, RPc.ending, RPc.read, RPc.looping]
  case h_12 =>
    subst hs
    unfold rReturn
    split <;> constructor <;> first | assumption | simp_all [RPc.inBody, RPc.ending, RPc.read, RPc.looping]
  case h_13 =>
    unfold rReturn at hs
    split at hs
    · simp only [Option.some.injEq] at hs
      subst hs
      constructor <;> first | assumption | simp_all [RPc.inBody, RPc.ending, RPc.read, RPc.looping]
    · simp at hs

theorem Calls.step {N : Nat} {a : Action} {s s' : State} (h : Calls s)
    (hs : step N a s = some s') : Calls s' := by
  cases a with
  | callW data n =>
    obtain ⟨h1, h2, h3, h4, h5, h6, h7, h8, h9⟩ := h
    simp only [Ring.step] at hs
    split at hs
    · rename_i hc
      simp only [Option.some.injEq] at hs
      subst hs
      simp only [hc.1, WPc.wrote] at h3
      constructor <;> first | assumption | simp_all [WPc.after, WPc.wrote]
    · simp at hs
  | callR dst n =>
    obtain ⟨h1, h2, h3, h4, h5, h6, h7, h8, h9⟩ := h
    simp only [Ring.step] at hs
    split at hs
    · rename_i hc
      simp only [Option.some.injEq] at hs
      subst hs
      simp only [hc.1, RPc.read] at h8
      constructor <;> first | assumption | simp_all [RPc.inBody, RPc.ending, RPc.read, RPc.looping]
    · simp at hs
  | w => exact h.wStep hs
  | r => exact h.rStep hs
  | handR =>
    obtain ⟨h1, h2, h3, h4, h5, h6, h7, h8, h9⟩ := h
    simp only [Ring.step] at hs
    split at hs
    · rename_i hr
      split at hs
      · rename_i hw
        simp only [Option.some.injEq] at hs
        subst hs
        simp only [hr, hw, WPc.after, WPc.wrote, RPc.inBody, RPc.read, RPc.looping, true_or, forall_const] at h1 h3 h4 h8 h9
        constructor <;> simp_all [RPc.ending, RPc.read, wReleased, rWaited, WPc.wrote]
      · split at hs
        · rename_i hw
          simp only [Option.some.injEq] at hs
          subst hs
          simp only [hr, hw, WPc.wrote, RPc.inBody, RPc.read, RPc.looping, forall_const] at h3 h4 h8 h9
          constructor <;> simp_all [RPc.ending, RPc.read, wReturn, rWaited, WPc.wrote, WPc.after]
        · simp at hs
    · simp at hs
  | handW =>
    obtain ⟨h1, h2, h3, h4, h5, h6, h7, h8, h9⟩ := h
    simp only [Ring.step] at hs
    split at hs
    · rename_i hw
      simp only [hw, WPc.after, WPc.wrote, true_or, forall_const] at h1 h3
      split at hs
      · rename_i hr
        simp only [Option.some.injEq] at hs
        subst hs
        simp only [hr, RPc.inBody, RPc.read, RPc.looping, forall_const] at h4 h8 h9
        apply Calls.wLoop
        · exact h1
        · exact h2
        · simp_all
        · constructor <;> simp_all [RPc.ending, RPc.read, WPc.wrote, WPc.after]
      · split at hs
        · rename_i hr
          simp only [Option.some.injEq] at hs
          subst hs
          simp only [hr, RPc.ending, RPc.read, RPc.looping, forall_const] at h5 h8 h9
          apply Calls.wLoop
          · exact h1
          · exact h2
          · simp_all [rReturn]
          · constructor <;> simp_all [RPc.inBody, RPc.ending, RPc.read, rReturn, WPc.wrote, WPc.after, RPc.looping]
        · simp at hs
    · simp at hs
  | close =>
    obtain ⟨h1, h2, h3, h4, h5, h6, h7, h8, h9⟩ := h
    simp only [Ring.step, Option.some.injEq] at hs
    subst hs
    constructor <;> assumption

theorem Reach.calls {N : Nat} {ok : State → Action → Prop} {s : State} (h : Reach N ok s) : Calls s :=
  Reach.inv Calls.init (fun _ _ _ _ hp _ hst => hp.step hst) h

end Kafka.Ring
