import Verif.Message.Bufio
/-!
What `bufio.Writer` does with the bytes it is given.
-/
namespace Kafka

/-- From `b` to `b'`, which has been given `p` in between: everything has been passed on or is in the buffer, until an error of
the network connection, which is kept. -/
structure Passed (b b' : Bufio) (p : List Byte) : Prop where
  faults : b'.raw.faults = b.raw.faults
  calls : b.raw.calls ≤ b'.raw.calls
  mono : b.raw.out <+: b'.raw.out
  pre : b'.raw.out <+: b.raw.out ++ b.buf ++ p
  full : b'.err = none → b'.raw.out ++ b'.buf = b.raw.out ++ b.buf ++ p
  clean : b'.err = none → ∀ k, b.raw.calls ≤ k → k < b'.raw.calls → b.raw.faults k = none
  stop : ∀ x, b'.err = some x → b.buf ++ p ≠ [] ∧ ∃ k m, b'.raw.calls = k + 1 ∧ b.raw.calls ≤ k ∧
    b.raw.faults k = some (m, x) ∧ ∀ j, b.raw.calls ≤ j → j < k → b.raw.faults j = none

theorem Passed.refl {b : Bufio} (h : b.err = none) : Passed b b [] :=
  ⟨rfl, Nat.le_refl _, List.prefix_refl _, by simp, fun _ => by simp, fun _ k _ _ => by omega, fun x hx => by simp [h] at hx⟩

/-- After an error nothing more is sent. -/
theorem Passed.more {b b' : Bufio} {p : List Byte} (h : Passed b b' p) (he : b'.err ≠ none) (q : List Byte) : Passed b b' (p ++ q) := by
  obtain ⟨h1, h2, h3, h4, h5, h6, h7⟩ := h
  refine ⟨h1, h2, h3, ?_, fun h => absurd h he, fun h => absurd h he, fun x hx => ?_⟩
  · rw [← List.append_assoc]
    exact h4.trans (List.prefix_append _ _)
  · obtain ⟨h8, h9⟩ := h7 x hx
    refine ⟨?_, h9⟩
    rw [← List.append_assoc]
    intro h
    exact h8 (List.append_eq_nil_iff.1 h).1

theorem Passed.trans {b b' b'' : Bufio} {p q : List Byte} (h : Passed b b' p) (he : b'.err = none) (h' : Passed b' b'' q) :
    Passed b b'' (p ++ q) := by
  have hf := h.full he
  have hc := h.clean he
  refine ⟨h'.faults.trans h.faults, Nat.le_trans h.calls h'.calls, h.mono.trans h'.mono, ?_, fun hx => ?_, fun hx k h1 h2 => ?_,
    fun x hx => ?_⟩
  · rw [← List.append_assoc, ← hf]; exact h'.pre
  · rw [h'.full hx, hf, List.append_assoc]
  · by_cases hk : k < b'.raw.calls
    · exact hc k h1 hk
    · rw [← h.faults]; exact h'.clean hx k (by omega) h2
  · obtain ⟨h1, k, m, h2, h3, h4, h5⟩ := h'.stop x hx
    rw [h.faults] at h4 h5
    refine ⟨fun hn => ?_, k, m, h2, Nat.le_trans h.calls h3, h4, fun j hj hj' => ?_⟩
    · rw [← List.append_assoc] at hn
      obtain ⟨ha, rfl⟩ := List.append_eq_nil_iff.1 hn
      rw [List.append_assoc, ha, List.append_nil] at hf
      have hl := congrArg List.length hf
      have := h.mono.length_le
      rw [List.length_append] at hl
      have : b'.buf = [] := List.length_eq_zero_iff.1 (by omega)
      rw [this] at h1
      exact h1 rfl
    · by_cases hk : j < b'.raw.calls
      · exact hc j hj hk
      · exact h5 j (by omega) hj'

theorem flush_sent {b : Bufio} (h : b.err = none) : Passed b b.flush.1 [] ∧ b.flush.2 = b.flush.1.err ∧
    (b.flush.1.err = none → b.flush.1.buf = []) := by
  unfold Bufio.flush
  rw [h]
  by_cases hb : b.buf = []
  · rw [if_pos hb]
    exact ⟨.refl h, h.symm, fun _ => hb⟩
  · simp only [hb, if_false]
    unfold RawWriter.write
    cases hf : b.raw.faults b.raw.calls with
    | none =>
      simp only
      refine ⟨⟨rfl, by simp, by simp, by simp, by simp, fun _ k h1 h2 => ?_, fun x hx => ?_⟩, by simp, by simp⟩
      · have : k = b.raw.calls := by simp only at h2; omega
        rw [this]; exact hf
      · simp at hx
    | some mx =>
      obtain ⟨m, x⟩ := mx
      simp only
      refine ⟨⟨rfl, by simp, by simp, ?_, by simp, by simp, fun y hy => ?_⟩, by simp, by simp⟩
      · rw [List.append_nil]
        exact (List.prefix_append_right_inj _).2 (List.take_prefix _ _)
      · simp only [Option.some.injEq] at hy
        subst hy
        exact ⟨by simpa using hb, b.raw.calls, m, rfl, Nat.le_refl _, hf, fun j h1 h2 => by omega⟩

theorem fill_sent {b : Bufio} (p : List Byte) (h : b.err = none) : Passed b (b.fill p) (p.take b.available) := by
  have h1 : Passed b { b with buf := b.buf ++ p.take b.available } (p.take b.available) :=
    ⟨rfl, Nat.le_refl _, List.prefix_refl _, by simp, fun _ => by simp, fun _ k _ _ => by simp only at *; omega,
      fun x hx => by simp [h] at hx⟩
  have h2 := (flush_sent (b := { b with buf := b.buf ++ p.take b.available }) h).1
  have h3 := h1.trans h h2
  rwa [List.append_nil] at h3

/-- One of the loops has been run on `p`, with the result `r`: the writer, and what is left of `p`. -/
def Looped (b : Bufio) (p : List Byte) (r : Bufio × List Byte) : Prop :=
  (r.1.err ≠ none ∧ Passed b r.1 p) ∨ (r.1.err = none ∧ ∃ q, p = q ++ r.2 ∧ Passed b r.1 q)

theorem Looped.next {b b' : Bufio} {p q rest : List Byte} {r : Bufio × List Byte} (hp : p = q ++ rest) (h : Passed b b' q)
    (he : b'.err = none) (h' : Looped b' rest r) : Looped b p r := by
  rcases h' with ⟨h1, h2⟩ | ⟨h1, q', h2, h3⟩
  · exact .inl ⟨h1, hp ▸ h.trans he h2⟩
  · exact .inr ⟨h1, q ++ q', by rw [hp, h2, List.append_assoc], h.trans he h3⟩

theorem direct_sent {b : Bufio} {p : List Byte} (hb : b.buf = []) (hp : p ≠ []) :
    Passed b { b with raw := (b.raw.write p).1, err := (b.raw.write p).2.2 } p ∧
    ((b.raw.write p).2.2 = none → (b.raw.write p).2.1 = p.length) := by
  unfold RawWriter.write
  cases hf : b.raw.faults b.raw.calls with
  | none =>
    simp only
    refine ⟨⟨rfl, by simp, by simp, by simp [hb], by simp [hb], fun _ k h1 h2 => ?_, fun x hx => by simp at hx⟩, by simp⟩
    have : k = b.raw.calls := by simp only at h2; omega
    rw [this]; exact hf
  | some mx =>
    obtain ⟨m, x⟩ := mx
    simp only
    refine ⟨⟨rfl, by simp, by simp, ?_, by simp, by simp, fun y hy => ?_⟩, by simp⟩
    · rw [hb, List.append_nil]
      exact (List.prefix_append_right_inj _).2 (List.take_prefix _ _)
    · simp only [Option.some.injEq] at hy
      subst hy
      exact ⟨by simp [hp], b.raw.calls, m, rfl, Nat.le_refl _, hf, fun j h1 h2 => by omega⟩

theorem fill_looped {b : Bufio} {p : List Byte} (h : b.err = none) (hne : (b.fill p).err ≠ none) :
    Looped b p (b.fill p, p.drop b.available) := by
  refine .inl ⟨hne, ?_⟩
  have := (fill_sent p h).more hne (p.drop b.available)
  rwa [List.take_append_drop] at this

theorem writeLoop_looped (b : Bufio) (p : List Byte) (h : b.err = none) : Looped b p (b.writeLoop p) := by
  induction b, p using Bufio.writeLoop.induct with
  | case1 b p hc hb r n hw ih =>
    have hp : p ≠ [] := by rintro rfl; simp at hc
    have hd := direct_sent hb hp
    rw [hw] at hd
    obtain rfl : n = p.length := hd.2 rfl
    rw [Bufio.writeLoop, if_pos hc, if_pos hb]
    split
    · rename_i r' n' hw'
      rw [hw] at hw'
      cases hw'
      have hs : Passed b { b with raw := r } p := by
        have := hd.1
        simp only [← h] at this
        exact this
      exact Looped.next (q := p) (by simp) hs h (ih h)
    · rename_i hw'
      rw [hw] at hw'
      simp at hw'
  | case2 b p hc hb r n x hw =>
    have hp : p ≠ [] := by rintro rfl; simp at hc
    have hd := direct_sent hb hp
    rw [hw] at hd
    rw [Bufio.writeLoop, if_pos hc, if_pos hb]
    split
    · rename_i hw'
      rw [hw] at hw'
      simp at hw'
    · rename_i hw'
      rw [hw] at hw'
      cases hw'
      exact .inl ⟨by simp, hd.1⟩
  | case3 b p hc hb hf ih =>
    rw [Bufio.writeLoop, if_pos hc, if_neg hb, if_pos hf]
    exact Looped.next (by rw [List.take_append_drop]) (fill_sent p h) hf (ih hf)
  | case4 b p hc hb hf =>
    rw [Bufio.writeLoop, if_pos hc, if_neg hb, if_neg hf]
    exact fill_looped h hf
  | case5 b p hc =>
    rw [Bufio.writeLoop, if_neg hc]
    exact .inr ⟨h, [], rfl, .refl h⟩

theorem stringLoop_looped (b : Bufio) (p : List Byte) (h : b.err = none) : Looped b p (b.stringLoop p) := by
  induction b, p using Bufio.stringLoop.induct with
  | case1 b p hc hf ih =>
    rw [Bufio.stringLoop, if_pos hc, if_pos hf]
    exact Looped.next (by rw [List.take_append_drop]) (fill_sent p h) hf (ih hf)
  | case2 b p hc hf =>
    rw [Bufio.stringLoop, if_pos hc, if_neg hf]
    exact fill_looped h hf
  | case3 b p hc =>
    rw [Bufio.stringLoop, if_neg hc]
    exact .inr ⟨h, [], rfl, .refl h⟩

theorem Looped.put {b : Bufio} {p : List Byte} {r : Bufio × List Byte} (h : Looped b p r) (he : r.1.err = none) :
    Passed b { r.1 with buf := r.1.buf ++ r.2 } p := by
  rcases h with ⟨h1, _⟩ | ⟨_, q, h2, h3⟩
  · exact absurd he h1
  · have : Passed r.1 { r.1 with buf := r.1.buf ++ r.2 } r.2 :=
      ⟨rfl, Nat.le_refl _, List.prefix_refl _, by simp, fun _ => by simp, fun _ k _ _ => by simp only at *; omega,
        fun x hx => by simp [he] at hx⟩
    rw [h2]
    exact h3.trans he this

theorem Looped.fail {b : Bufio} {p : List Byte} {r : Bufio × List Byte} (h : Looped b p r) (he : r.1.err ≠ none) : Passed b r.1 p := by
  rcases h with ⟨_, h1⟩ | ⟨h1, _⟩
  · exact h1
  · exact absurd h1 he

/-- `Write` and `WriteString` pass on what they are given. -/
theorem write_sent {b : Bufio} (p : List Byte) (h : b.err = none) : Passed b (b.write p).1 p ∧ (b.write p).2 = (b.write p).1.err := by
  have hl := writeLoop_looped b p h
  unfold Bufio.write
  cases he : (b.writeLoop p).1.err with
  | none => simp only [he]; exact ⟨by have := hl.put he; simp only [he] at this; exact this, trivial⟩
  | some x => simp only [he]; exact ⟨hl.fail (by simp [he]), trivial⟩

theorem writeString_sent {b : Bufio} (p : List Byte) (h : b.err = none) :
    Passed b (b.writeString p).1 p ∧ (b.writeString p).2 = (b.writeString p).1.err := by
  have hl := stringLoop_looped b p h
  unfold Bufio.writeString
  cases he : (b.stringLoop p).1.err with
  | none => simp only [he]; exact ⟨by have := hl.put he; simp only [he] at this; exact this, trivial⟩
  | some x => simp only [he]; exact ⟨hl.fail (by simp [he]), trivial⟩

/-- After an error they do nothing and return it. -/
theorem write_err {b : Bufio} (p : List Byte) {x : WErr} (h : b.err = some x) : b.write p = (b, some x) := by
  unfold Bufio.write
  rw [Bufio.writeLoop, if_neg (by simp [h])]
  simp [h]

theorem writeString_err {b : Bufio} (p : List Byte) {x : WErr} (h : b.err = some x) : b.writeString p = (b, some x) := by
  unfold Bufio.writeString
  rw [Bufio.stringLoop, if_neg (by simp [h])]
  simp [h]

theorem flush_err {b : Bufio} {x : WErr} (h : b.err = some x) : b.flush = (b, some x) := by
  unfold Bufio.flush
  simp [h]

/-- On a failed writer an encoder method changes nothing but the encoder's own error. -/
theorem Prog.runB_err {x : WErr} : ∀ (p : Prog) {s : ConnEncoder}, s.b.err = some x → (s.err = none ∨ s.err = some x) →
    (p.runB s).b = s.b ∧ ((p.runB s).err = none ∨ (p.runB s).err = some x) ∧ (s.err = some x → (p.runB s).err = some x)
  | .skip, s, _, he => ⟨rfl, he, id⟩
  | .chunk str c, s, h, _ => by
    cases str <;> simp [Prog.runB, write_err c h, writeString_err c h]
  | .seq p q, s, h, he => by
    obtain ⟨h1, h2, h3⟩ := p.runB_err h he
    obtain ⟨h4, h5, h6⟩ := q.runB_err (s := p.runB s) (by rw [h1]; exact h) h2
    exact ⟨h4.trans h1, h5, fun h => h6 (h3 h)⟩
  | .guard p, s, h, he => by
    simp only [Prog.runB]
    split
    · exact ⟨rfl, he, id⟩
    · exact p.runB_err h he

/-- An encoder method on a sound connection. -/
theorem Prog.runB_sent : ∀ (p : Prog) {s : ConnEncoder}, s.b.err = none → s.err = none →
    Passed s.b (p.runB s).b p.bytes ∧ (p.runB s).err = (p.runB s).b.err
  | .skip, s, h, he => ⟨.refl h, he.trans h.symm⟩
  | .chunk str c, s, h, _ => by
    cases str <;> simp only [Prog.runB, Prog.bytes]
    · exact write_sent c h
    · exact writeString_sent c h
  | .seq p q, s, h, he => by
    obtain ⟨h1, h2⟩ := p.runB_sent h he
    simp only [Prog.runB, Prog.bytes]
    cases hx : (p.runB s).b.err with
    | none =>
      obtain ⟨h3, h4⟩ := q.runB_sent hx (h2.trans hx)
      exact ⟨h1.trans hx h3, h4⟩
    | some x =>
      obtain ⟨h3, _, h5⟩ := q.runB_err hx (.inr (h2.trans hx))
      rw [h3, h5 (h2.trans hx), hx]
      exact ⟨h1.more (by simp [hx]) _, rfl⟩
  | .guard p, s, h, he => by
    simp only [Prog.runB, he]
    exact p.runB_sent h he

theorem Prog.Is.bytes {p : Prog} {f : Encoder → Encoder} (h : p.Is f) : bytesOf f = p.bytes := by
  have : ∀ (p : Prog) (e : Encoder), e.err = none → (∀ k, e.faults k = none) →
      (p.run e).err = none ∧ (p.run e).out = e.out ++ p.bytes ∧ (p.run e).faults = e.faults := by
    intro p
    induction p with
    | skip => intro e he _; simp [Prog.run, Prog.bytes, he]
    | chunk str c => intro e he hf; simp [Prog.run, Prog.bytes, Encoder.targetWrite, hf]
    | seq p q ihp ihq =>
      intro e he hf
      obtain ⟨h1, h2, h3⟩ := ihp e he hf
      obtain ⟨h4, h5, h6⟩ := ihq (p.run e) h1 (by rw [h3]; exact hf)
      exact ⟨h4, by rw [Prog.run, h5, h2, Prog.bytes, List.append_assoc], h6.trans h3⟩
    | guard p ih => intro e he hf; simpa [Prog.run, Prog.bytes, he] using ih e he hf
  have := (this p (newEncoder fun _ => none) rfl fun _ => rfl).2.1
  unfold bytesOf
  rw [h, this]
  rfl

/-- Every sequence of guarded writes is such a program. -/
theorem Emits.prog {f : Encoder → Encoder} {bs : List Byte} (h : Emits f bs) : ∃ p : Prog, p.Is f := by
  obtain ⟨cs, h1, h2⟩ := h
  clear h1
  refine ⟨cs.foldr (fun c q => .seq (.guard (.chunk false c)) q) .skip, fun e => ?_⟩
  rw [h2]
  clear h2
  induction cs generalizing e with
  | nil => rfl
  | cons c cs ih =>
    show writeAll cs _ = _
    rw [ih]
    rfl

end Kafka
