import Verif.Message.BufioLemmas
/-!
How often `bufio.Writer` calls `Write` of the network connection.
-/
namespace Kafka

/-- Every write so far has been given a full buffer at least: with `T` bytes put into `b`, leading to `b'`. -/
structure Frugal (b b' : Bufio) (T : Nat) : Prop where
  size : b'.size = b.size
  room : b'.err = none → b'.buf.length ≤ b.size
  fine : b'.err = none → b.size * b'.raw.calls + b'.buf.length ≤ b.size * b.raw.calls + b.buf.length + T
  stop : b'.err ≠ none → b.size * b'.raw.calls ≤ b.size * b.raw.calls + b.buf.length + T
  mono : b.raw.calls ≤ b'.raw.calls
  same : b'.raw.calls = b.raw.calls → b'.raw = b.raw

namespace Bufio

theorem write_calls (r : RawWriter) (p : List Byte) : (r.write p).1.calls = r.calls + 1 := by
  unfold RawWriter.write
  split <;> rfl

/-- `Flush`, of a buffer with something in it. -/
theorem flush_calls {b : Bufio} (h : b.err = none) (hb : b.buf ≠ []) :
    b.flush.1.raw.calls = b.raw.calls + 1 ∧ b.flush.1.size = b.size ∧ (b.flush.1.err = none → b.flush.1.buf = []) := by
  have hc := write_calls b.raw b.buf
  unfold flush
  rw [h]
  simp only [hb, if_false]
  rcases e : b.raw.write b.buf with ⟨r, n, _ | x⟩
  · rw [e] at hc
    exact ⟨hc, rfl, fun _ => rfl⟩
  · rw [e] at hc
    refine ⟨hc, rfl, fun h => ?_⟩
    simp at h

theorem fill_calls {b : Bufio} {p : List Byte} (h : b.err = none) (hr : b.buf.length ≤ b.size) (hp : b.available < p.length) :
    (b.fill p).raw.calls = b.raw.calls + 1 ∧ (b.fill p).size = b.size ∧ ((b.fill p).err = none → (b.fill p).buf = []) := by
  unfold fill
  refine flush_calls (b := { b with buf := b.buf ++ p.take b.available }) h fun hn => ?_
  have := congrArg List.length hn
  have hs := b.pos
  simp only [List.length_append, List.length_take, List.length_nil] at this
  unfold available at *
  omega

/-- What the loops of `Write` and `WriteString` have done, with `q` of `p` left. -/
structure Looped (b : Bufio) (p : List Byte) (b' : Bufio) (q : List Byte) : Prop where
  size : b'.size = b.size
  room : b'.err = none → b'.buf.length + q.length ≤ b.size
  fine : b'.err = none → b.size * b'.raw.calls + (b'.buf.length + q.length) ≤ b.size * b.raw.calls + b.buf.length + p.length
  stop : b'.err ≠ none → b.size * b'.raw.calls ≤ b.size * b.raw.calls + b.buf.length + p.length
  mono : b.raw.calls ≤ b'.raw.calls
  same : b'.raw.calls = b.raw.calls → b'.raw = b.raw

/-- One write of `b.size` bytes or more, then the rest. -/
theorem Looped.next {b b₁ b' : Bufio} {p p₁ q : List Byte} (h : Looped b₁ p₁ b' q) (hs : b₁.size = b.size)
    (hc : b₁.raw.calls = b.raw.calls + 1) (hl : b.size + b₁.buf.length + p₁.length ≤ b.buf.length + p.length) : Looped b p b' q := by
  obtain ⟨h1, h2, h3, h4, h5, h6⟩ := h
  rw [hs, hc] at h3 h4
  rw [Nat.mul_add, Nat.mul_one] at h3 h4
  refine ⟨h1.trans hs, fun h => hs ▸ h2 h, fun h => ?_, fun h => ?_, by omega, fun h => by omega⟩
  · have := h3 h; omega
  · have := h4 h; omega

/-- One write that fails. -/
theorem Looped.last {b b' : Bufio} {p q : List Byte} (hx : b'.err ≠ none) (hs : b'.size = b.size)
    (hc : b'.raw.calls = b.raw.calls + 1) (hl : b.size ≤ b.buf.length + p.length) : Looped b p b' q := by
  refine ⟨hs, fun h => absurd h hx, fun h => absurd h hx, fun _ => ?_, by omega, fun h => by omega⟩
  rw [hc, Nat.mul_add, Nat.mul_one]
  omega

theorem writeLoop_calls (b : Bufio) (p : List Byte) (h : b.err = none) (hr : b.buf.length ≤ b.size) :
    Looped b p (b.writeLoop p).1 (b.writeLoop p).2 := by
  unfold writeLoop
  split
  · rename_i hc
    have hpl := hc.1
    split
    · rename_i hb
      have hw := write_calls b.raw p
      have ha : b.available = b.size := by simp [available, hb]
      split
      · rename_i r n e
        have hn : n = p.length := by
          unfold RawWriter.write at e
          split at e <;> simp at e
          exact e.2.symm
        rw [e] at hw
        refine (writeLoop_calls { b with raw := r } (p.drop n) h hr).next rfl hw ?_
        simp only [hn, List.drop_length, List.length_nil]
        omega
      · rename_i r n x e
        rw [e] at hw
        exact .last (by simp) rfl hw (by omega)
    · rename_i hb
      obtain ⟨h1, h2, h3⟩ := fill_calls h hr hpl
      have ha : b.available = b.size - b.buf.length := rfl
      split
      · rename_i he
        have hb' := h3 he
        refine (writeLoop_calls (b.fill p) (p.drop b.available) he (by rw [hb']; exact Nat.zero_le _)).next h2 h1 ?_
        rw [hb', List.length_nil, List.length_drop]
        omega
      · rename_i he
        exact .last he h2 h1 (by omega)
  · rename_i hc
    have : ¬ b.available < p.length := fun h' => hc ⟨h', h⟩
    unfold available at this
    exact ⟨rfl, fun _ => by dsimp only; omega, fun _ => by dsimp only; omega, fun hx => absurd h hx, Nat.le_refl _, fun _ => rfl⟩
termination_by (p.length, b.buf.length)
decreasing_by
  · by_cases ha : b.available = 0
    · rw [ha, List.drop_zero]
      apply Prod.Lex.right
      rw [fill_buf (by assumption), List.length_nil]
      exact List.length_pos_iff.2 (by assumption)
    · apply Prod.Lex.left
      rw [List.length_drop]
      omega
  · apply Prod.Lex.left
    rw [List.length_drop]
    omega

theorem stringLoop_calls (b : Bufio) (p : List Byte) (h : b.err = none) (hr : b.buf.length ≤ b.size) :
    Looped b p (b.stringLoop p).1 (b.stringLoop p).2 := by
  unfold stringLoop
  split
  · rename_i hc
    have hpl := hc.1
    obtain ⟨h1, h2, h3⟩ := fill_calls h hr hpl
    have ha : b.available = b.size - b.buf.length := rfl
    split
    · rename_i he
      have hb' := h3 he
      refine (stringLoop_calls (b.fill p) (p.drop b.available) he (by rw [hb']; exact Nat.zero_le _)).next h2 h1 ?_
      rw [hb', List.length_nil, List.length_drop]
      omega
    · rename_i he
      exact .last he h2 h1 (by omega)
  · rename_i hc
    have : ¬ b.available < p.length := fun h' => hc ⟨h', h⟩
    unfold available at this
    exact ⟨rfl, fun _ => by dsimp only; omega, fun _ => by dsimp only; omega, fun hx => absurd h hx, Nat.le_refl _, fun _ => rfl⟩
termination_by (p.length, b.buf.length)
decreasing_by
  by_cases ha : b.available = 0
  · rw [ha, List.drop_zero]
    apply Prod.Lex.right
    rw [fill_buf (by assumption), List.length_nil]
    have := b.pos
    omega
  · apply Prod.Lex.left
    rw [List.length_drop]
    omega

/-- The ends of `Write` and `WriteString`. -/
theorem Looped.done {b b' : Bufio} {p q : List Byte} {r : Bufio × Option WErr} (h : Looped b p b' q)
    (hr : r = match b'.err with | some x => (b', some x) | none => ({ b' with buf := b'.buf ++ q }, none)) :
    Frugal b r.1 p.length ∧ r.2 = r.1.err := by
  obtain ⟨h1, h2, h3, h4, h5, h6⟩ := h
  cases hx : b'.err with
  | some x =>
    simp only [hx] at hr
    subst hr
    exact ⟨⟨h1, fun h => by simp [hx] at h, fun h => by simp [hx] at h, fun h => h4 h, h5, h6⟩, hx.symm⟩
  | none =>
    have hr : r = ({ b' with buf := b'.buf ++ q }, none) := by
      rw [hr]
      split
      · rename_i e; rw [hx] at e; cases e
      · rfl
    subst hr
    refine ⟨⟨h1, fun _ => ?_, fun _ => ?_, fun h => absurd hx h, h5, h6⟩, hx.symm⟩
    · simpa using h2 hx
    · simpa using h3 hx

theorem write_frugal {b : Bufio} {p : List Byte} (h : b.err = none) (hr : b.buf.length ≤ b.size) :
    Frugal b (b.write p).1 p.length ∧ (b.write p).2 = (b.write p).1.err := (b.writeLoop_calls p h hr).done rfl

theorem writeString_frugal {b : Bufio} {p : List Byte} (h : b.err = none) (hr : b.buf.length ≤ b.size) :
    Frugal b (b.writeString p).1 p.length ∧ (b.writeString p).2 = (b.writeString p).1.err := (b.stringLoop_calls p h hr).done rfl

end Bufio

theorem Frugal.trans {b b₁ b₂ : Bufio} {T U : Nat} (h : Frugal b b₁ T) (he : b₁.err = none) (h' : Frugal b₁ b₂ U) :
    Frugal b b₂ (T + U) := by
  obtain ⟨h1, h2, h3, h4, h5, h6⟩ := h
  obtain ⟨k1, k2, k3, k4, k5, k6⟩ := h'
  have := h3 he
  rw [h1] at k2 k3 k4
  refine ⟨k1.trans h1, k2, fun h => ?_, fun h => ?_, by omega, fun h => ?_⟩
  · have := k3 h; omega
  · have := k4 h; omega
  · rw [k6 (by omega), h6 (by omega)]

theorem Frugal.more {b b' : Bufio} {T U : Nat} (h : Frugal b b' T) (hU : T ≤ U) : Frugal b b' U := by
  obtain ⟨h1, h2, h3, h4, h5, h6⟩ := h
  refine ⟨h1, h2, fun h => ?_, fun h => ?_, h5, h6⟩
  · have := h3 h; omega
  · have := h4 h; omega

theorem Frugal.refl {b : Bufio} (hr : b.buf.length ≤ b.size) : Frugal b b 0 :=
  ⟨rfl, fun _ => hr, fun _ => Nat.le_refl _, fun _ => by omega, Nat.le_refl _, fun _ => rfl⟩

/-- What an encoder method puts into the buffer of a sound connection. -/
theorem Prog.runB_frugal : ∀ (p : Prog) {s : ConnEncoder}, s.b.err = none → s.err = none → s.b.buf.length ≤ s.b.size →
    Frugal s.b (p.runB s).b p.bytes.length ∧ (p.runB s).err = (p.runB s).b.err
  | .skip, s, h, he, hr => ⟨.refl hr, he.trans h.symm⟩
  | .chunk str c, s, h, he, hr => by
    cases str with
    | true => exact Bufio.writeString_frugal h hr
    | false => exact Bufio.write_frugal h hr
  | .guard p, s, h, he, hr => by
    have : (Prog.guard p).runB s = p.runB s := by simp [Prog.runB, he]
    rw [this]
    exact p.runB_frugal h he hr
  | .seq p q, s, h, he, hr => by
    obtain ⟨h1, h2⟩ := p.runB_frugal h he hr
    show Frugal s.b (q.runB (p.runB s)).b (p.bytes ++ q.bytes).length ∧ _
    rw [List.length_append]
    cases hx : (p.runB s).b.err with
    | none =>
      obtain ⟨h3, h4⟩ := q.runB_frugal hx (h2.trans hx) (by have := h1.room hx; rw [h1.size]; exact this)
      exact ⟨h1.trans hx h3, h4⟩
    | some x =>
      obtain ⟨h3, _, h4⟩ := q.runB_err hx (.inr (h2.trans hx))
      rw [h3]
      refine ⟨h1.more (by omega), ?_⟩
      show (q.runB (p.runB s)).err = (q.runB (p.runB s)).b.err
      rw [h4 (h2.trans hx), h3, hx]

end Kafka
