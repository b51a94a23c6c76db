import Verif.Conn.Arrives
/-!
The ring buffer and `messageLoop` when every `raw.Read` returns whole frames and the buffer does not get full.
-/
set_option linter.unusedSimpArgs false

namespace Kafka.Conn

open Kafka

/-- Frames end after the first `k` bytes. -/
def Bound (R : List Byte) (k : Nat) : Prop := k ≤ R.length ∧ ∃ fs, Parsed fs (R.take k)

theorem Bound.append {R : List Byte} {k : Nat} (h : Bound R k) (data : List Byte) : Bound (R ++ data) k := by
  obtain ⟨h1, fs, h2⟩ := h
  exact ⟨by rw [List.length_append]; omega, fs, by rwa [List.take_append_of_le_length h1]⟩

theorem Parsed.append {fs gs : List (List Byte)} {bs cs : List Byte} (h : Parsed fs bs) (h' : Parsed gs cs) :
    Parsed (fs ++ gs) (bs ++ cs) := by
  induction h' with
  | nil => simpa using h
  | snoc v f _ hf ih => simpa using Parsed.snoc v f ih hf

/-- A frame has four bytes or more. -/
theorem Bound.lt {R : List Byte} {j k : Nat} (h : Bound R j) (h' : Bound R k) (hl : j < k) : j + 4 ≤ k := by
  obtain ⟨h1, fs, hfs⟩ := h
  obtain ⟨h2, gs, hgs⟩ := h'
  have hlen : fs.length < gs.length := by
    refine Nat.lt_of_not_le fun hle => ?_
    obtain ⟨t, h3, h4⟩ := hfs.take gs.length
    have h5 := (h3.det hgs (h4.trans (List.take_prefix _ _)) (List.take_prefix _ _) (by rw [List.length_take]; omega)).2
    have h6 := h4.length_le
    rw [h5, List.length_take, List.length_take] at h6
    omega
  obtain ⟨v, f, _, hnext⟩ := hfs.next hgs (List.take_prefix _ _) (List.take_prefix _ _) hlen
  have := hnext.length_le
  simp only [List.length_append, int32_len, List.length_take] at this
  omega

/-- The writer never finds the buffer full, and what it publishes are whole frames; a reader that has been woken is at the
start of one. -/
structure Ring.Whole (N : Nat) (R : List Byte) (hd : Prop) (r : Ring.State) : Prop where
  wpc : r.wpc = .idle ∨ r.wpc = .load1 ∨ r.wpc = .load2 ∨ r.wpc = .put ∨ r.wpc = .fstore ∨ r.wpc = .frelCas ∨ r.wpc = .frelRecv
  wres : r.wres = false
  wwrote : r.wpc = .put ∨ r.wpc = .fstore → r.wwrote = 0
  room : R.length + 2 ≤ r.rel + N
  wroom : r.wpc = .put ∨ r.wpc = .fstore → R.length + 2 ≤ r.wrel + N
  all : Bound R R.length
  pub : Bound R r.pub
  old : r.wpc = .load1 ∨ r.wpc = .load2 ∨ r.wpc = .put ∨ r.wpc = .fstore → r.pub + r.wn = R.length
  rpub : r.rpc.looping = true → Bound R r.rpub
  wake : r.rpc = .waitSend → r.wpc = .frelCas ∨ r.wpc = .frelRecv → r.got.length < r.pub
  get : r.rres = true → r.rpc = .get → hd ∧ r.taken.length + 4 ≤ r.pub

theorem Ring.Whole.step {N : Nat} (hN : 6 ≤ N) {R : List Byte} {hd : Prop} {r r' : Ring.State} {a : Ring.Action}
    (h : Ring.Whole N R hd r) (hpos : Ring.Pos N r) (hfifo : Ring.Fifo N r) (hcalls : Ring.Calls r) (hpair : Ring.Pair r)
    (hcl : r.closed = false) (hgiv : r.given = R)
    (hin : inRing a = true) (hno : a = .r → r.rpc = .waitCas → r.wpc ≠ .frelCas)
    (hwake : r.rpc = .waitSend → r.got.length < r.pub → hd ∧ r.taken.length + 4 ≤ r.pub)
    (hs : Ring.step N a r = some r') : Ring.Whole N R hd r' := by
  obtain ⟨i1, i2, i3, i4, i5, i6, i7, i8, i9, i10, i11⟩ := h
  have hlen := congrArg List.length hcalls.given
  rw [hgiv] at hlen
  have wl : ∀ t : Ring.State, (Ring.wLoop t).wpc = .put ∨ (Ring.wLoop t).wpc = .fstore := Ring.wLoop_pc
  cases a <;> simp [inRing] at hin
  case w =>
    simp only [Ring.step, Ring.wStep] at hs
    rcases i1 with hp | hp | hp | hp | hp | hp | hp <;>
      simp only [hp, Option.some.injEq, reduceCtorEq, false_or, or_false, true_or, or_true, false_implies, forall_const] at hs i3 i5 i8 i10 hlen
    · subst hs
      constructor <;> first | assumption | simp_all
    · subst hs
      unfold Ring.wLoop
      split <;> constructor <;> first | assumption | simp_all
    · subst hs
      have hbody := hcalls.wbody (.inr hp)
      have hwl := hcalls.wlen
      rw [if_neg (by
        intro hx
        rw [hpos.wpos (by rw [hp]; rfl), Ring.incr_mod (by omega), Ring.incr_mod (by omega),
          hpos.wstart (by rw [hp]; rfl), ← Nat.add_mod_right r.wrel] at hx
        have h3 := hpos.pub_le
        have h4 := hfifo.got_le
        have h5 := hpos.rel_le
        have h6 := hpos.wrel_le
        have h7 := hfifo.room
        simp [Ring.WPc.wrote] at hlen
        have h5 := Ring.mod_inj (by omega) (by omega) hx
        omega)]
      unfold Ring.wLoop
      split <;> constructor <;> first | assumption | simp_all
    · have hput : r.put.length = R.length := by simp [Ring.WPc.wrote] at hlen; omega
      have hgot := hfifo.got_le
      have hle := i7.1
      have h10 : r.rres = true → r.rpc = .get → hd ∧ r.taken.length + 4 ≤ r.put.length := fun h1 h2 => by
        have := i11 h1 h2
        exact ⟨this.1, by omega⟩
      have hb : Bound R r.put.length := by rw [hput]; exact i6
      split at hs
      · subst hs
        exact ⟨by simp, i2, by simp, i4, by simp, i6, hb, by simp, i9, fun _ _ => by
          show r.got.length < r.put.length
          omega, h10⟩
      · subst hs
        exact ⟨by simp [Ring.wReturn], i2, by simp [Ring.wReturn], i4, by simp [Ring.wReturn], i6, hb, by simp [Ring.wReturn], i9,
          by simp [Ring.wReturn], h10⟩
    · split at hs <;> subst hs
      · constructor <;> first | assumption | simp_all
      · unfold Ring.wReturn
        constructor <;> first | assumption | simp_all
    · rw [hcl] at hs; cases hs
  case r =>
    have hrel := hpos.rel_le
    have rl : ∀ t : Ring.State, Ring.Whole N R hd { t with rpc := .store } → (t.rres = true → hd ∧ t.taken.length + 4 ≤ t.pub) →
        Ring.Whole N R hd (Ring.rLoop t) := fun t ⟨j1, j2, j3, j4, j5, j6, j7, j8, j9, _, _⟩ j11 => by
      unfold Ring.rLoop
      split
      · split
        · exact ⟨j1, j2, j3, j4, j5, j6, j7, j8, j9, by simp, by simp⟩
        · exact ⟨j1, j2, j3, j4, j5, j6, j7, j8, fun _ => j9 rfl, by simp, fun h _ => j11 h⟩
      · exact ⟨j1, j2, j3, j4, j5, j6, j7, j8, fun _ => j9 rfl, by simp, by simp⟩
    simp only [Ring.step, Ring.rStep] at hs
    split at hs <;> rename_i hp <;>
      simp only [hp, Option.some.injEq, reduceCtorEq, false_or, or_false, true_or, or_true, false_implies, forall_const] at hs i9 i10 i11
    · subst hs; exact ⟨i1, i2, i3, i4, i5, i6, i7, i8, by simp [Ring.RPc.looping], by simp, by simp⟩
    · subst hs
      exact rl _ ⟨i1, i2, i3, i4, i5, i6, i7, i8, fun _ => i7, by simp, by simp⟩ (by simp)
    · have h4 : R.length + 2 ≤ r.got.length + N := by omega
      split at hs <;> subst hs <;> exact ⟨i1, i2, i3, h4, i5, i6, i7, i8, fun _ => i9 rfl, by simp, by simp⟩
    · split at hs <;> subst hs <;> exact ⟨i1, i2, i3, i4, i5, i6, i7, i8, fun _ => i9 rfl, by simp, by simp⟩
    · rw [hcl] at hs; cases hs
    · split at hs <;> subst hs <;> exact ⟨i1, i2, i3, i4, i5, i6, i7, i8, fun _ => i7, by simp, by simp⟩
    · split at hs
      · rename_i hset; have := (hpair.rset.1 hset).1; rw [hp] at this; cases this
      · subst hs
        refine ⟨i1, i2, i3, i4, i5, i6, i7, i8, fun _ => i9 rfl, fun _ hw => ?_, by simp⟩
        rcases hw with hw | hw
        · exact absurd hw (hno rfl hp)
        · have := hpair.rrel (by rw [show r.wpc = .frelRecv from hw]; rfl); rw [hp] at this; cases this
    · rw [hcl] at hs; cases hs
    · subst hs
      exact rl _ ⟨i1, i2, i3, i4, i5, i6, i7, i8, fun _ => i9 rfl, by simp, by simp⟩ i11
    · have h4 : R.length + 2 ≤ r.got.length + N := by omega
      split at hs <;> subst hs <;> exact ⟨i1, i2, i3, h4, i5, i6, i7, i8, fun _ => i9 rfl, by simp [Ring.rReturn], by simp [Ring.rReturn]⟩
    · split at hs <;> subst hs <;> exact ⟨i1, i2, i3, i4, i5, i6, i7, i8, fun _ => i9 rfl, by simp [Ring.rReturn], by simp [Ring.rReturn]⟩
    · rw [hcl] at hs; cases hs
  case handR =>
    simp only [Ring.step] at hs
    split at hs
    · rename_i hp
      split at hs
      · rename_i hw; simp [hw] at i1
      · split at hs
        · rename_i hw
          simp only [Option.some.injEq] at hs
          subst hs
          have hd := hwake hp (i10 hp (.inr hw))
          exact ⟨by simp [Ring.wReturn], i2, by simp [Ring.wReturn], i4, by simp [Ring.wReturn], i6, i7, by simp [Ring.wReturn],
            fun _ => i9 (by rw [hp]; rfl), by simp [Ring.wReturn, Ring.rWaited], fun _ _ => hd⟩
        · cases hs
    · cases hs
  case handW =>
    simp only [Ring.step] at hs
    split at hs
    · rename_i hw; simp [hw] at i1
    · cases hs

/-- A reader to which something is published while it waits is about to be woken. -/
def Ring.Rung (r : Ring.State) : Prop :=
  r.rpc = .waitSend → r.got.length < r.pub → (r.wpc = .frelCas ∨ r.wpc = .frelRecv) ∧ 2 ≤ r.wn ∧ r.wwrote = 0

theorem Ring.Rung.step {N : Nat} {R : List Byte} {hd : Prop} {r r' : Ring.State} {a : Ring.Action} (hr : Ring.Rung r)
    (h : Ring.Whole N R hd r) (hcalls : Ring.Calls r) (hpair : Ring.Pair r) (hcl : r.closed = false) (hgiv : r.given = R)
    (hin : inRing a = true) (hno : a = .r → r.rpc = .waitCas → r.got.length = r.pub)
    (hs : Ring.step N a r = some r') : Ring.Rung r' := by
  have hlen := congrArg List.length hcalls.given
  rw [hgiv] at hlen
  cases a <;> simp [inRing] at hin
  case w =>
    simp only [Ring.step, Ring.wStep] at hs
    rcases h.wpc with hp | hp | hp | hp | hp | hp | hp <;> simp only [hp, Option.some.injEq, reduceCtorEq] at hs
    · subst hs
      intro h1 h2
      have := (hr h1 h2).1
      simp [hp] at this
    · subst hs
      intro h1 h2
      have := (hr (by simpa using h1) (by simpa using h2)).1
      simp [hp] at this
    · subst hs
      intro h1 h2
      have := (hr (by split at h1 <;> simpa using h1) (by split at h2 <;> simpa using h2)).1
      simp [hp] at this
    · have hput : r.put.length = R.length := by rw [hp] at hlen; simp [Ring.WPc.wrote] at hlen; omega
      have hw := h.wwrote (.inr hp)
      split at hs
      · subst hs
        intro h1 h2
        refine ⟨.inl rfl, ?_, hw⟩
        show 2 ≤ r.wn
        omega
      · subst hs
        intro h1 h2
        have h1 : r.rpc = .waitSend := h1
        have h2 : r.got.length < r.put.length := h2
        have hold := h.old (by simp [hp])
        by_cases hx : r.pub < R.length
        · have := h.pub.lt h.all hx; omega
        · have := (hr h1 (by omega)).1
          simp [hp] at this
    · split at hs
      · subst hs
        intro h1 h2
        exact ⟨.inr rfl, (hr h1 h2).2⟩
      · rename_i hset
        subst hs
        intro h1 h2
        have h1 : r.rpc = .waitSend := h1
        exact absurd (hpair.rset.2 ⟨h1, by rw [hp]; rfl⟩) hset
    · rw [hcl] at hs; cases hs
  case r =>
    have rl : ∀ t : Ring.State, (Ring.rLoop t).rpc ≠ .waitSend := fun t => by
      rcases Ring.rLoop_pc t with h | h | h <;> rw [h] <;> simp
    simp only [Ring.step, Ring.rStep] at hs
    split at hs <;> rename_i hp <;> (try simp only [Option.some.injEq, reduceCtorEq] at hs)
    all_goals first
      | (subst hs; exact fun h1 => absurd h1 (rl _))
      | (subst hs; intro h1; cases h1; done)
      | (split at hs <;> (try simp only [Option.some.injEq, reduceCtorEq] at hs) <;> subst hs <;> intro h1 <;> cases h1; done)
      | skip
    · split at hs
      · subst hs; intro h1; cases h1
      · subst hs
        intro _ h2
        have := hno rfl hp
        have h2 : r.got.length < r.pub := h2
        omega
  case handR =>
    simp only [Ring.step] at hs
    split at hs <;> (try split at hs) <;> (try split at hs) <;> simp only [Option.some.injEq, reduceCtorEq] at hs <;>
      subst hs <;> intro h1 <;> cases h1
  case handW =>
    simp only [Ring.step] at hs
    split at hs
    · rename_i hw; have := h.wpc; simp [hw] at this
    · cases hs

end Kafka.Conn
