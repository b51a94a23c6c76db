import Verif.Ring.Buffer
/-!
Positions and counters of the ring buffer, in every schedule whatsoever.
-/
namespace Kafka.Ring

theorem incr_mod {N : Nat} (h : 0 < N) (k : Nat) : incr N (k % N) = (k + 1) % N := by
  unfold incr
  have h1 : k % N < N := Nat.mod_lt _ h
  by_cases h2 : k % N + 1 = N
  · rw [if_pos h2, Nat.add_mod]
    by_cases h3 : N = 1
    · subst h3; omega
    · rw [Nat.mod_eq_of_lt (a := 1) (by omega), h2, Nat.mod_self]
  · rw [if_neg h2]
    rw [← Nat.mod_eq_of_lt (a := k % N + 1) (b := N) (by omega)]
    simp

theorem mod_inj {N a b : Nat} (h1 : a ≤ b) (h2 : b < a + N) (h : a % N = b % N) : a = b := by
  have h3 : (b - a) % N = 0 := by
    have := Nat.sub_mod_eq_zero_of_mod_eq h.symm
    exact this
  rw [Nat.mod_eq_of_lt (by omega)] at h3
  omega

/-- The writer has loaded `r.next`. -/
def WPc.loaded : WPc → Bool
  | .idle | .load1 => false
  | _ => true

/-- The writer has loaded `r.start`. -/
def WPc.looping : WPc → Bool
  | .idle | .load1 | .load2 => false
  | _ => true

/-- Everything put is published. -/
def WPc.published : WPc → Bool
  | .put | .store | .fstore => false
  | _ => true

/-- Byte `wi` has been put already and the call has not ended. -/
def WPc.after : WPc → Bool
  | .store | .relCas | .relRecv | .reload | .waitCas | .waitSend => true
  | _ => false

/-- The call has put all its bytes. -/
def WPc.ending : WPc → Bool
  | .fstore | .frelCas | .frelRecv => true
  | _ => false

def RPc.loaded : RPc → Bool
  | .idle | .load1 => false
  | _ => true

def RPc.looping : RPc → Bool
  | .idle | .load1 | .load2 => false
  | _ => true

/-- Everything read is released. -/
def RPc.released : RPc → Bool
  | .get | .store | .fstore => false
  | _ => true

/-- In the loop body before byte `ri` is read. -/
def RPc.inBody : RPc → Bool
  | .store | .relCas | .relRecv | .reload | .waitCas | .waitSend | .get => true
  | _ => false

def RPc.ending : RPc → Bool
  | .fstore | .frelCas | .frelRecv => true
  | _ => false

structure Pos (N : Nat) (s : State) : Prop where
  next : s.next = s.pub % N
  start : s.start = s.rel % N
  pub_le : s.pub ≤ s.put.length
  rel_le : s.rel ≤ s.got.length
  wrel_le : s.wrel ≤ s.rel
  rpub_le : s.rpub ≤ s.pub
  wpos : s.wpc.loaded → s.wpos = s.put.length % N
  wstart : s.wpc.looping → s.wstart = s.wrel % N
  wpub : s.wpc.published → s.pub = s.put.length
  rpos : s.rpc.loaded → s.rpos = s.got.length % N
  rnext : s.rpc.looping → s.rnext = s.rpub % N
  rrel : s.rpc.released → s.rel = s.got.length

theorem Pos.init {N : Nat} : Pos N init := by
  constructor <;> simp [Ring.init, WPc.loaded, WPc.looping, RPc.loaded, RPc.looping]

theorem Pos.wLoop {N : Nat} {s : State} (h : Pos N { s with wpc := .put }) : Pos N (wLoop s) := by
  unfold Ring.wLoop
  split
  · exact h
  · obtain ⟨h1, h2, h3, h4, h5, h6, h7, h8, h9, h10, h11, h12⟩ := h
    constructor <;> first | assumption | simpa using h7 | simpa using h8 | simp [WPc.published]

theorem Pos.rLoop {N : Nat} {s : State} (h : Pos N { s with rpc := .get }) : Pos N (rLoop s) := by
  unfold Ring.rLoop
  obtain ⟨h1, h2, h3, h4, h5, h6, h7, h8, h9, h10, h11, h12⟩ := h
  split
  · split <;> constructor <;> first | assumption | simp [RPc.released]
  · constructor <;> first | assumption | simp [RPc.released]

theorem Pos.wStep {N : Nat} (hN : 0 < N) {s s' : State} (h : Pos N s) (hs : wStep N s = some s') :
    Pos N s' := by
  obtain ⟨h1, h2, h3, h4, h5, h6, h7, h8, h9, h10, h11, h12⟩ := h
  unfold Ring.wStep at hs
  split at hs <;> rename_i hpc <;> simp only [hpc, WPc.loaded, WPc.looping, WPc.published, forall_const, Bool.false_eq_true, false_implies] at h7 h8 h9
  case h_1 => simp at hs
  all_goals (try simp only [Option.some.injEq] at hs)
  case h_2 =>
    subst hs
    constructor <;> simp_all [WPc.loaded, WPc.looping, WPc.published]
  case h_3 =>
    subst hs
    apply Pos.wLoop
    constructor <;> simp_all [WPc.loaded, WPc.looping, WPc.published]
  case h_4 =>
    subst hs
    split
    · constructor <;> simp_all [WPc.loaded, WPc.looping, WPc.published, incr_mod hN] 
      omega
    · apply Pos.wLoop
      constructor <;> simp_all [WPc.loaded, WPc.looping, WPc.published, incr_mod hN]
      omega
  case h_5 =>
    subst hs
    constructor <;> simp_all [WPc.loaded, WPc.looping, WPc.published]
    omega
  case h_6 =>
    subst hs
    unfold wReleased
    split <;> constructor <;> simp_all [WPc.loaded, WPc.looping, WPc.published]
  case h_7 =>
    split at hs
    · simp only [Option.some.injEq] at hs
      subst hs
      unfold wReleased
      constructor <;> simp_all [WPc.loaded, WPc.looping, WPc.published]
    · simp at hs
  case h_8 =>
    subst hs
    split
    · constructor <;> simp_all [WPc.loaded, WPc.looping, WPc.published]
    · apply Pos.wLoop
      constructor <;> simp_all [WPc.loaded, WPc.looping, WPc.published]
  case h_9 =>
    subst hs
    split
    · apply Pos.wLoop
      constructor <;> simp_all [WPc.loaded, WPc.looping, WPc.published]
    · constructor <;> simp_all [WPc.loaded, WPc.looping, WPc.published]
  case h_10 =>
    split at hs
    · simp only [Option.some.injEq] at hs
      subst hs
      apply Pos.wLoop
      constructor <;> simp_all [WPc.loaded, WPc.looping, WPc.published]
    · simp at hs
  case h_11 =>
    subst hs
    unfold wReturn
    split <;> constructor <;> simp_all [WPc.loaded, WPc.looping, WPc.published] <;> omega
  case h_12 =>
    subst hs
    unfold wReturn
    split <;> constructor <;> simp_all [WPc.loaded, WPc.looping, WPc.published]
  case h_13 =>
    unfold wReturn at hs
    split at hs
    · simp only [Option.some.injEq] at hs
      subst hs
      constructor <;> simp_all [WPc.loaded, WPc.looping, WPc.published]
    · simp at hs

theorem Pos.rStep {N : Nat} (hN : 0 < N) {s s' : State} (h : Pos N s) (hs : rStep N s = some s') :
    Pos N s' := by
  obtain ⟨h1, h2, h3, h4, h5, h6, h7, h8, h9, h10, h11, h12⟩ := h
  unfold Ring.rStep at hs
  split at hs <;> rename_i hpc <;> simp only [hpc, RPc.loaded, RPc.looping, RPc.released, forall_const, Bool.false_eq_true, false_implies] at h10 h11 h12
  case h_1 => simp at hs
  all_goals (try simp only [Option.some.injEq] at hs)
  case h_2 =>
    subst hs
    constructor <;> simp_all [RPc.loaded, RPc.looping, RPc.released]
  case h_3 =>
    subst hs
    apply Pos.rLoop
    constructor <;> simp_all [RPc.loaded, RPc.looping, RPc.released]
  case h_4 =>
    subst hs
    split <;> constructor <;> simp_all [RPc.loaded, RPc.looping, RPc.released] <;> omega
  case h_5 =>
    subst hs
    split <;> constructor <;> simp_all [RPc.loaded, RPc.looping, RPc.released]
  case h_6 =>
    split at hs
    · simp only [Option.some.injEq] at hs
      subst hs
      constructor <;> simp_all [RPc.loaded, RPc.looping, RPc.released]
    · simp at hs
  case h_7 =>
    subst hs
    split <;> constructor <;> simp_all [RPc.loaded, RPc.looping, RPc.released]
  case h_8 =>
    subst hs
    unfold rWaited
    split <;> constructor <;> simp_all [RPc.loaded, RPc.looping, RPc.released]
  case h_9 =>
    unfold rWaited at hs
    split at hs
    · simp only [Option.some.injEq] at hs
      subst hs
      constructor <;> simp_all [RPc.loaded, RPc.looping, RPc.released]
    · simp at hs
  case h_10 =>
    subst hs
    apply Pos.rLoop
    constructor <;> simp_all [RPc.loaded, RPc.looping, RPc.released, incr_mod hN]
    omega
  case h_11 =>
    subst hs
    unfold rReturn
    split <;> constructor <;> simp_all [RPc.loaded, RPc.looping, RPc.released] <;> omega
  case h_12 =>
    subst hs
    unfold rReturn
    split <;> constructor <;> simp_all [RPc.loaded, RPc.looping, RPc.released]
  case h_13 =>
    unfold rReturn at hs
    split at hs
    · simp only [Option.some.injEq] at hs
      subst hs
      constructor <;> simp_all [RPc.loaded, RPc.looping, RPc.released]
    · simp at hs

theorem Pos.step {N : Nat} (hN : 0 < N) {a : Action} {s s' : State} (h : Pos N s)
    (hs : step N a s = some s') : Pos N s' := by
  cases a with
  | callW data n =>
    obtain ⟨h1, h2, h3, h4, h5, h6, h7, h8, h9, h10, h11, h12⟩ := h
    simp only [Ring.step] at hs
    split at hs
    · simp only [Option.some.injEq] at hs
      subst hs
      constructor <;> simp_all [WPc.loaded, WPc.looping, WPc.published]
    · simp at hs
  | callR dst n =>
    obtain ⟨h1, h2, h3, h4, h5, h6, h7, h8, h9, h10, h11, h12⟩ := h
    simp only [Ring.step] at hs
    split at hs
    · simp only [Option.some.injEq] at hs
      subst hs
      constructor <;> simp_all [RPc.loaded, RPc.looping, RPc.released]
    · simp at hs
  | w => exact h.wStep hN hs
  | r => exact h.rStep hN hs
  | handR =>
    obtain ⟨h1, h2, h3, h4, h5, h6, h7, h8, h9, h10, h11, h12⟩ := h
    simp only [Ring.step] at hs
    split at hs
    · rename_i hr
      split at hs
      · rename_i hw
        simp only [Option.some.injEq] at hs
        subst hs
        simp only [hr, hw, RPc.loaded, RPc.looping, RPc.released, WPc.loaded, WPc.looping, WPc.published, forall_const] at *
        constructor <;> simp_all [RPc.released, wReleased, rWaited]
      · split at hs
        · rename_i hw
          simp only [Option.some.injEq] at hs
          subst hs
          simp only [hr, hw, RPc.loaded, RPc.looping, RPc.released, WPc.loaded, WPc.looping, WPc.published, forall_const] at *
          constructor <;> simp_all [RPc.released, wReturn, rWaited, WPc.loaded, WPc.looping]
        · simp at hs
    · simp at hs
  | handW =>
    obtain ⟨h1, h2, h3, h4, h5, h6, h7, h8, h9, h10, h11, h12⟩ := h
    simp only [Ring.step] at hs
    split at hs
    · rename_i hw
      split at hs
      · rename_i hr
        simp only [Option.some.injEq] at hs
        subst hs
        simp only [hr, hw, RPc.loaded, RPc.looping, RPc.released, WPc.loaded, WPc.looping, WPc.published, forall_const] at *
        apply Pos.wLoop
        constructor <;> simp_all
      · split at hs
        · rename_i hr
          simp only [Option.some.injEq] at hs
          subst hs
          simp only [hr, hw, RPc.loaded, RPc.looping, RPc.released, WPc.loaded, WPc.looping, WPc.published, forall_const] at *
          apply Pos.wLoop
          constructor <;> simp_all [rReturn, RPc.loaded, RPc.looping]
        · simp at hs
    · simp at hs
  | close =>
    obtain ⟨h1, h2, h3, h4, h5, h6, h7, h8, h9, h10, h11, h12⟩ := h
    simp only [Ring.step, Option.some.injEq] at hs
    subst hs
    constructor <;> assumption

theorem Reach.inv {N : Nat} {ok : State → Action → Prop} {P : State → Prop} (h0 : P Ring.init)
    (hs : ∀ a s s', Reach N ok s → P s → ok s a → Ring.step N a s = some s' → P s') {s : State}
    (h : Reach N ok s) : P s := by
  induction h with
  | init => exact h0
  | step a h1 h2 h3 ih => exact hs a _ _ h1 ih h2 h3

theorem Reach.pos {N : Nat} (hN : 0 < N) {ok : State → Action → Prop} {s : State} (h : Reach N ok s) :
    Pos N s :=
  Reach.inv Pos.init (fun _ _ _ _ hp _ hst => hp.step hN hst) h

end Kafka.Ring
