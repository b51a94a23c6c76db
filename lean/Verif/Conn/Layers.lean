import Verif.Conn.Memory
import Verif.Conn.Stream
/-!
What is in the buffer into which `messageLoop` reads (gen.conn.go:111): the frames read, each over the ones before.
-/
set_option linter.unusedSimpArgs false

namespace Kafka.Conn

open Kafka

/-- A frame stored at the beginning of a buffer. -/
def over (m f : List Byte) : List Byte := f ++ m.drop f.length

theorem ring_call {N : Nat} {a : Ring.Action} {r r' : Ring.State} (h : Ring.step N a r = some r')
    (ha : ∀ dst n, a ≠ .callR dst n) : r'.rorig = r.rorig ∧ r'.rn = r.rn := by
  cases a with
  | callR dst n => exact absurd rfl (ha dst n)
  | callW data n =>
    simp only [Ring.step] at h
    split at h <;> simp only [Option.some.injEq, reduceCtorEq] at h
    subst h; exact ⟨rfl, rfl⟩
  | close => simp only [Ring.step, Option.some.injEq] at h; subst h; exact ⟨rfl, rfl⟩
  | w =>
    simp only [Ring.step, Ring.wStep] at h
    split at h <;> (try split at h) <;> simp only [Option.some.injEq, reduceCtorEq] at h <;>
      (try split at h) <;> subst h <;> simp [Ring.wReleased, Ring.wWaited, Ring.wReturn, Ring.wLoop] <;>
      (try split) <;> (try split) <;> simp
  | r =>
    simp only [Ring.step, Ring.rStep] at h
    split at h <;> (try split at h) <;> simp only [Option.some.injEq, reduceCtorEq] at h <;>
      (try split at h) <;> subst h <;> simp [Ring.rWaited, Ring.rReturn, Ring.rLoop] <;>
      (try split) <;> (try split) <;> simp
  | handR =>
    simp only [Ring.step] at h
    split at h <;> (try split at h) <;> (try split at h) <;> simp only [Option.some.injEq, reduceCtorEq] at h <;>
      subst h <;> simp [Ring.wReleased, Ring.wWaited, Ring.wReturn, Ring.rWaited, Ring.rReturn]
  | handW =>
    simp only [Ring.step] at h
    split at h <;> (try split at h) <;> (try split at h) <;> simp only [Option.some.injEq, reduceCtorEq] at h <;>
      subst h <;> unfold Ring.wWaited Ring.wLoop <;> split <;> exact ⟨rfl, rfl⟩

/-- From the fifth byte on the buffer is `m` with the frames after the first `k` over it. -/
structure Layers (k : Nat) (m : List Byte) (s : State) : Prop where
  frames : k ≤ s.frames.length
  buf : s.buf.drop 4 = ((s.frames.drop k).foldl over m).drop 4
  head : s.mpc = .inHead → s.ring.rorig = s.buf ∧ s.ring.rn ≤ 4
  body : ∀ size, s.mpc = .inBody size → size ≤ s.buf.length →
    s.ring.rorig.drop size.toNat = s.buf.drop size.toNat ∧ s.ring.rn ≤ size.toNat

theorem drop_drop_eq {l l' : List Byte} {n m : Nat} (h : l.drop n = l'.drop n) (hm : n ≤ m) : l.drop m = l'.drop m := by
  have h1 := congrArg (List.drop (m - n)) h
  rwa [List.drop_drop, List.drop_drop, show n + (m - n) = m by omega] at h1

theorem Layers.parsed {k : Nat} {m : List Byte} {s : State} {size : Int} (h : Layers k m s) (hm : s.mpc = .inBody size)
    (hs : size ≤ s.buf.length) (hl : s.ring.rdst.length = s.buf.length) (hc : Ring.Calls s.ring) :
    s.ring.rdst.drop 4 = (((s.frames ++ [s.ring.rdst.take size.toNat]).drop k).foldl over m).drop 4 := by
  obtain ⟨h1, h2⟩ := h.body size hm hs
  have h3 : s.ring.rdst.drop size.toNat = s.buf.drop size.toNat := by
    rw [drop_drop_eq hc.rorig h2, h1]
  have hn : (s.ring.rdst.take size.toNat).length = size.toNat := by
    rw [List.length_take]; omega
  rw [List.drop_append_of_le_length h.frames, List.foldl_append, List.foldl_cons, List.foldl_nil, over, hn]
  have h4 : s.ring.rdst = s.ring.rdst.take size.toNat ++ s.buf.drop size.toNat := by
    rw [← h3, List.take_append_drop]
  have h5 : ∀ l : List Byte, (s.ring.rdst.take size.toNat ++ l).drop 4 =
      (s.ring.rdst.take size.toNat).drop 4 ++ l.drop (4 - size.toNat) := fun l => by
    rw [List.drop_append, hn]
  conv => lhs; rw [h4]
  rw [h5, h5, List.drop_drop, List.drop_drop]
  congr 1
  exact drop_drop_eq h.buf (by omega)

theorem Layers.trans {P : Params} {a : Act} {k : Nat} {m : List Byte} {s s' : State} (h : Layers k m s) (hf : Frames P s)
    (hc : Ring.Calls s.ring) (ht : Trans P s a s') : Layers k m s' := by
  obtain ⟨h1, h2, h3, h4⟩ := id h
  cases ht
  case ring a r ha hr =>
    obtain ⟨e1, e2⟩ := ring_call hr (by rintro dst n rfl; cases ha)
    exact ⟨h1, h2, fun hm => by rw [e1, e2]; exact h3 hm, fun size hm hs => by rw [e1, e2]; exact h4 size hm hs⟩
  case read data r g1 g2 g3 hr =>
    obtain ⟨e1, e2⟩ := ring_call hr (by simp)
    exact ⟨h1, h2, fun hm => by rw [e1, e2]; exact h3 hm, fun size hm hs => by rw [e1, e2]; exact h4 size hm hs⟩
  case rbClose j r g1 hr =>
    obtain ⟨e1, e2⟩ := ring_call hr (by simp)
    exact ⟨h1, h2, fun hm => by rw [e1, e2]; exact h3 hm, fun size hm hs => by rw [e1, e2]; exact h4 size hm hs⟩
  case head r hm hcn hr =>
    obtain ⟨_, _, rfl⟩ := ring_callR hr
    exact ⟨h1, h2, fun _ => ⟨rfl, Nat.min_le_left _ _⟩, fun size hx => by cases hx⟩
  case body size r hm hi hz hr =>
    obtain ⟨_, _, rfl⟩ := ring_callR hr
    obtain ⟨e1, e2⟩ := h3 hm
    have h5 := drop_drop_eq hc.rorig e2
    rw [e1] at h5
    refine ⟨h1, h5.trans h2, fun hx => (by cases hx), fun size' hx hs => ?_⟩
    cases hx
    have hz' : size ≤ s.ring.rdst.length := hs
    exact ⟨congrArg _ (if_neg (by omega)), Nat.min_le_left _ _⟩
  case parse size resp d hm hi hs hd =>
    exact ⟨by simp only [List.length_append]; omega, h.parsed hm hs ((hf.length hm hs).trans hf.buf.symm) hc,
      fun hx => (by cases hx), fun size hx => by cases hx⟩
  case skip size e d hm hi hs hd =>
    exact ⟨by simp only [List.length_append]; omega, h.parsed hm hs ((hf.length hm hs).trans hf.buf.symm) hc,
      fun hx => (by cases hx), fun size hx => by cases hx⟩
  case parseCrash size hm hi hs hd =>
    refine ⟨by simp only [List.length_append]; omega, h.parsed hm hs ((hf.length hm hs).trans hf.buf.symm) hc,
      fun hx => (by rw [hm] at hx; cases hx), fun size' hx hs' => ?_⟩
    have hx' : s.mpc = .inBody size' := hx
    rw [hm] at hx'; cases hx'
    obtain ⟨_, e2⟩ := h4 size hm hs
    exact ⟨(drop_drop_eq hc.rorig e2).symm, e2⟩
  all_goals
    refine ⟨h1, h2, fun hx => ?_, fun size hx => ?_⟩ <;> first
    | exact h3 hx
    | exact h4 size hx
    | (simp only [State.set] at hx; cases hx; done)
    | simp_all [State.set]

theorem frames_trans {P : Params} {a : Act} {s s' : State} (ht : Trans P s a s') : s.frames <+: s'.frames := by
  cases ht <;> first
  | exact List.prefix_append _ _
  | exact List.prefix_rfl

theorem calls_trans {P : Params} {a : Act} {s s' : State} (h : Ring.Calls s.ring) (ht : Trans P s a s') :
    Ring.Calls s'.ring := by
  cases ht
  case ring a r ha hr => exact h.step hr
  case read data r _ _ _ hr => exact h.step hr
  case rbClose j r _ hr => exact h.step hr
  case head r _ _ hr => exact h.step hr
  case body size r _ _ _ hr => exact h.step hr
  all_goals exact h

/-- A byte of the buffer is that of the last frame that reaches it. -/
theorem layers_get (m : List Byte) (fs : List (List Byte)) (i : Nat) :
    (fs.foldl over m)[i]? = match fs.reverse.find? (fun f => decide (i < f.length)) with
      | some f => f[i]?
      | none => m[i]? := by
  induction fs generalizing m with
  | nil => rfl
  | cons f fs ih =>
    rw [List.foldl_cons, ih, List.reverse_cons, List.find?_append]
    cases fs.reverse.find? (fun f => decide (i < f.length)) with
    | some g => rfl
    | none =>
      simp only [Option.none_or, List.find?_cons, List.find?_nil, over]
      by_cases h : i < f.length
      · simp only [h, decide_true, List.getElem?_append_left h]
      · simp only [h, decide_false]
        rw [List.getElem?_append_right (by omega), List.getElem?_drop, show f.length + (i - f.length) = i by omega]

/-- What is in the buffer after a run, unless the body of a frame is being read. -/
theorem run_layers {P : Params} {ok : State → Act → Prop} {s s' : State} (h : Reach P ok s)
    (hm : ∀ size, s.mpc ≠ .inBody size) (hh : s.mpc ≠ .inHead) {as : List Act} (hr : run P as s = some s')
    (hm' : ∀ size, s'.mpc ≠ .inBody size) :
    ∃ new, s'.frames = s.frames ++ new ∧ s'.memory.length = s.buf.length ∧
      s'.memory.drop 4 = (new.foldl over s.buf).drop 4 := by
  have hc : Ring.Calls s.ring := (h.ring (rok := fun _ _ => True) (fun _ _ _ => trivial) fun _ _ _ => trivial).calls
  obtain ⟨⟨hf, _⟩, hc', ⟨new, hn⟩, hl⟩ := run_inv (P := P) (ok := fun _ => True)
    (I := fun x => (Frames P x ∧ Tokens x ∧ Locks x) ∧ Ring.Calls x.ring ∧ s.frames <+: x.frames ∧
      Layers s.frames.length s.buf x)
    (fun x x' a hi _ ht => ⟨⟨hi.1.1.trans hi.1.2.1 ht, hi.1.2.1.trans hi.1.2.2 ht, hi.1.2.2.trans ht⟩,
      calls_trans hi.2.1 ht, hi.2.2.1.trans (frames_trans ht), hi.2.2.2.trans hi.1.1 hi.2.1 ht⟩)
    as (fun _ _ => trivial)
    ⟨⟨h.frames, h.tokens, h.locks⟩, hc, List.prefix_rfl, Nat.le_refl _, by rw [List.drop_length]; rfl,
      fun hx => absurd hx hh, fun size hx => absurd hx (hm size)⟩ hr
  refine ⟨new, hn.symm, ?_⟩
  have h1 := hl.buf
  rw [← hn, List.drop_left] at h1
  rw [← h1, h.frames.buf]
  by_cases hx : s'.mpc = .inHead
  · obtain ⟨e1, e2⟩ := hl.head hx
    have h2 := drop_drop_eq hc'.rorig e2
    rw [e1] at h2
    simp only [State.memory, hx]
    exact ⟨hf.head hx, h2⟩
  · have h2 : s'.memory = s'.buf := by
      unfold State.memory
      split
      · rename_i h3; exact absurd h3 hx
      · rename_i h3; exact absurd h3 (hm' _)
      · rfl
    rw [h2]
    exact ⟨hf.buf, rfl⟩

end Kafka.Conn
