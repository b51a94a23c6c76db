import Verif.Conn.Frames
import Verif.Ring.Fifo
import Verif.Broker.Frame
/-!
Invariants of the connection machine: the frames `messageLoop` reads, against the bytes it gets
from the ring buffer.
-/
set_option linter.unusedSimpArgs false

namespace Kafka.Conn

open Kafka

/-! ### Specification -/

/-- The complete frames in a stream of bytes: an int32 length and that many bytes, a negative length
counting as zero. -/
def splitStream (bs : List Byte) : List (List Byte) :=
  match bs with
  | a :: b :: c :: d :: rest =>
    let n := Wire.readInt32 a b c d
    if n > rest.length then []
    else rest.take n.toNat :: splitStream (rest.drop n.toNat)
  | _ => []
termination_by bs.length
decreasing_by simp; omega

/-- `bs` consists of the frames `fs`. -/
inductive Parsed : List (List Byte) → List Byte → Prop where
  | nil : Parsed [] []
  | snoc {fs : List (List Byte)} {bs : List Byte} (v : Int32) (f : List Byte) : Parsed fs bs →
      f.length = v.toInt.toNat → Parsed (fs ++ [f]) (bs ++ Wire.int32 v ++ f)

theorem splitStream_frame (v : Int32) (f t : List Byte) (h : f.length = v.toInt.toNat) :
    splitStream (Wire.int32 v ++ (f ++ t)) = f :: splitStream t := by
  have hv : ∃ b0 b1 b2 b3 : Byte, Wire.int32 v = [b0, b1, b2, b3] ∧ Wire.readInt32 b0 b1 b2 b3 = v.toInt := by
    rw [wire_int32]
    refine ⟨_, _, _, _, rfl, ?_⟩
    unfold Wire.readInt32
    have := beUint32_be32 v.toBitVec []
    simp only [be32, List.append_nil, beUint32, Option.some.injEq] at this
    rw [this]
    rfl
  obtain ⟨b0, b1, b2, b3, h1, h2⟩ := hv
  rw [h1]
  show splitStream (b0 :: b1 :: b2 :: b3 :: (f ++ t)) = _
  rw [splitStream, h2]
  rw [if_neg (by rw [List.length_append]; omega), ← h, List.take_left, List.drop_left]

theorem Parsed.split {fs : List (List Byte)} {bs : List Byte} (h : Parsed fs bs) :
    ∀ t, splitStream (bs ++ t) = fs ++ splitStream t := by
  induction h with
  | nil => intro t; rfl
  | snoc v f _ hf ih =>
    intro t
    rw [List.append_assoc, List.append_assoc, ih, splitStream_frame v f t hf, List.append_assoc]
    rfl

/-! ### The reader's side of the ring buffer -/

theorem ring_read {N : Nat} {a : Ring.Action} {r r' : Ring.State} (h : Ring.step N a r = some r')
    (ha : ∀ dst n, a ≠ .callR dst n) :
    r'.rn = r.rn ∧
    ((r.rpc ≠ .idle ∧ r'.rpc = .idle ∧ r'.taken = r.taken ++ r'.rdst.take r.rn) ∨
     ((r'.rpc = .idle ↔ r.rpc = .idle) ∧ r'.taken = r.taken ∧ (r.rpc = .idle → r'.rdst = r.rdst))) := by
  cases a with
  | callR dst n => exact absurd rfl (ha dst n)
  | callW data n =>
    simp only [Ring.step] at h
    split at h <;> simp only [Option.some.injEq, reduceCtorEq] at h
    subst h; exact ⟨rfl, .inr ⟨Iff.rfl, rfl, fun _ => rfl⟩⟩
  | close =>
    simp only [Ring.step, Option.some.injEq] at h
    subst h; exact ⟨rfl, .inr ⟨Iff.rfl, rfl, fun _ => rfl⟩⟩
  | w =>
    simp only [Ring.step, Ring.wStep] at h
    split at h <;> (try split at h) <;> simp only [Option.some.injEq, reduceCtorEq] at h <;>
      (try split at h) <;> subst h <;> simp [Ring.wReleased, Ring.wWaited, Ring.wReturn]
  | r =>
    have hl : ∀ s : Ring.State, (Ring.rLoop s).rpc ≠ .idle := fun s => by
      rcases Ring.rLoop_pc s with h | h | h <;> rw [h] <;> simp
    simp only [Ring.step, Ring.rStep] at h
    split at h <;> (try split at h) <;> simp only [Option.some.injEq, reduceCtorEq] at h <;>
      (try split at h) <;> subst h <;> simp_all [Ring.rWaited, Ring.rReturn]
  | handR =>
    simp only [Ring.step] at h
    split at h <;> (try split at h) <;> (try split at h) <;> simp only [Option.some.injEq, reduceCtorEq] at h <;>
      subst h <;> simp_all [Ring.wReleased, Ring.wWaited, Ring.wReturn, Ring.rWaited, Ring.rReturn]
  | handW =>
    simp only [Ring.step] at h
    split at h <;> (try split at h) <;> (try split at h) <;> simp only [Option.some.injEq, reduceCtorEq] at h <;>
      subst h <;> simp_all [Ring.wReleased, Ring.wWaited, Ring.wReturn, Ring.rWaited, Ring.rReturn]

theorem ring_given {N : Nat} {a : Ring.Action} {r r' : Ring.State} (h : Ring.step N a r = some r')
    (ha : ∀ data n, a ≠ .callW data n) : r'.given = r.given := by
  cases a with
  | callW data n => exact absurd rfl (ha data n)
  | callR dst n => obtain ⟨_, _, rfl⟩ := ring_callR h; rfl
  | close => simp only [Ring.step, Option.some.injEq] at h; subst h; rfl
  | w =>
    simp only [Ring.step, Ring.wStep] at h
    split at h <;> (try split at h) <;> simp only [Option.some.injEq, reduceCtorEq] at h <;>
      (try split at h) <;> subst h <;> simp [Ring.wReleased, Ring.wWaited, Ring.wReturn]
  | r =>
    simp only [Ring.step, Ring.rStep] at h
    split at h <;> (try split at h) <;> simp only [Option.some.injEq, reduceCtorEq] at h <;>
      (try split at h) <;> subst h <;> simp [Ring.rWaited, Ring.rReturn]
  | handR =>
    simp only [Ring.step] at h
    split at h <;> (try split at h) <;> (try split at h) <;> simp only [Option.some.injEq, reduceCtorEq] at h <;>
      subst h <;> simp [Ring.wReleased, Ring.wWaited, Ring.wReturn, Ring.rWaited, Ring.rReturn]
  | handW =>
    simp only [Ring.step] at h
    split at h <;> (try split at h) <;> (try split at h) <;> simp only [Option.some.injEq, reduceCtorEq] at h <;>
      subst h <;> simp [Ring.wReleased, Ring.wWaited, Ring.wReturn, Ring.rWaited, Ring.rReturn]

theorem ring_callW {N : Nat} {data : List Byte} {n : Nat} {r r' : Ring.State}
    (h : Ring.step N (.callW data n) r = some r') :
    r.wpc = .idle ∧ n ≤ data.length ∧
      r' = { r with wpc := .load1, wdata := data, wn := n, given := r.given ++ data.take n } := by
  simp only [Ring.step] at h
  split at h <;> simp only [Option.some.injEq, reduceCtorEq] at h
  rename_i hc
  exact ⟨hc.1, hc.2, h.symm⟩

/-- What the two goroutines have passed through the ring buffer. -/
structure Stream (s : State) : Prop where
  given : s.ring.given = s.received
  out : (∀ size, s.mpc ≠ .inHead ∧ s.mpc ≠ .inBody size) → s.ring.rpc = .idle ∧ Parsed s.frames s.ring.taken
  head : s.mpc = .inHead → ∃ bs, Parsed s.frames bs ∧ s.ring.rn = min 4 s.ring.rdst.length ∧
    s.ring.taken = bs ++ if s.ring.rpc = .idle then s.ring.rdst.take (min 4 s.ring.rdst.length) else []
  body : ∀ size, s.mpc = .inBody size → ∃ bs v, Parsed s.frames bs ∧ size = Int32.toInt v ∧
    s.ring.rn = min size.toNat s.ring.rdst.length ∧
    s.ring.taken = bs ++ Wire.int32 v ++
      if s.ring.rpc = .idle then s.ring.rdst.take (min size.toNat s.ring.rdst.length) else []

theorem Stream.init (P : Params) : Stream (init P) :=
  ⟨rfl, fun _ => ⟨rfl, .nil⟩, by simp [Conn.init], by simp [Conn.init]⟩

/-- Steps that do not read. -/
theorem Stream.keep {s s' : State} (h : Stream s) (hr : s'.ring = s.ring) (hg : s'.received = s.received)
    (hf : s'.frames = s.frames) (hm : s'.mpc = s.mpc ∨
      ((∀ size, s'.mpc ≠ .inHead ∧ s'.mpc ≠ .inBody size) ∧ (∀ size, s.mpc ≠ .inHead ∧ s.mpc ≠ .inBody size))) :
    Stream s' := by
  rcases hm with hm | ⟨hm, hm'⟩
  · constructor
    · rw [hr, hg]; exact h.given
    · rw [hr, hf, hm]; exact h.out
    · rw [hr, hf, hm]; exact h.head
    · rw [hr, hf, hm]; exact h.body
  · exact ⟨by rw [hr, hg]; exact h.given, fun _ => by rw [hr, hf]; exact h.out hm',
      fun hh => absurd hh (hm 0).1, fun size hh => absurd hh (hm size).2⟩

/-- Steps of the ring buffer. -/
theorem Stream.ring {N : Nat} {a : Ring.Action} {s s' : State} {r' : Ring.State} (h : Stream s)
    (hst : Ring.step N a s.ring = some r') (ha : ∀ dst n, a ≠ .callR dst n) (hr : s'.ring = r')
    (hg : r'.given = s'.received) (hf : s'.frames = s.frames) (hm : s'.mpc = s.mpc) : Stream s' := by
  have hl := ring_rdst hst ha
  obtain ⟨h1, h2⟩ := ring_read hst ha
  constructor
  · rw [hr]; exact hg
  · rw [hr, hf, hm]
    intro hh
    obtain ⟨h3, h4⟩ := h.out hh
    rcases h2 with ⟨h5, _⟩ | ⟨h5, h6, _⟩
    · exact absurd h3 h5
    · exact ⟨h5.2 h3, by rw [h6]; exact h4⟩
  · rw [hr, hf, hm, hl, h1]
    intro hh
    obtain ⟨bs, h3, h4, h5⟩ := h.head hh
    refine ⟨bs, h3, h4, ?_⟩
    rcases h2 with ⟨h6, h7, h8⟩ | ⟨h6, h7, h8⟩
    · rw [h8, h5, if_neg h6, if_pos h7, List.append_nil, h4]
    · rw [h7, h5]
      by_cases hi : s.ring.rpc = .idle
      · rw [if_pos hi, if_pos (h6.2 hi), h8 hi]
      · rw [if_neg hi, if_neg (fun h => hi (h6.1 h))]
  · rw [hr, hf, hm, hl, h1]
    intro size hh
    obtain ⟨bs, v, h3, hv, h4, h5⟩ := h.body size hh
    refine ⟨bs, v, h3, hv, h4, ?_⟩
    rcases h2 with ⟨h6, h7, h8⟩ | ⟨h6, h7, h8⟩
    · rw [h8, h5, if_neg h6, if_pos h7, List.append_nil, h4]
    · rw [h7, h5]
      by_cases hi : s.ring.rpc = .idle
      · rw [if_pos hi, if_pos (h6.2 hi), h8 hi]
      · rw [if_neg hi, if_neg (fun h => hi (h6.1 h))]

theorem Stream.trans {P : Params} (hP : 4 ≤ P.buf) {a : Act} {s s' : State} (h : Stream s) (hf : Frames P s)
    (ht : Trans P s a s') : Stream s' := by
  cases ht
  case ring a r ha hr =>
    refine h.ring hr ?_ rfl ((ring_given hr ?_).trans h.given) rfl rfl
    · rintro _ _ rfl; cases ha
    · rintro _ _ rfl; cases ha
  case rbClose k r h1 hr =>
    exact h.ring hr (by simp) rfl ((ring_given hr (by simp)).trans h.given) rfl rfl
  case read data r h1 h2 h3 hr =>
    refine h.ring hr (by simp) rfl ?_ rfl rfl
    obtain ⟨_, _, rfl⟩ := ring_callW hr
    show s.ring.given ++ data.take data.length = s.received ++ data
    rw [h.given, List.take_length]
  case head r hm hc hr =>
    obtain ⟨h1, h2⟩ := h.out (by simp [hm])
    obtain ⟨_, _, rfl⟩ := ring_callR hr
    exact ⟨h.given, by simp, fun _ => ⟨_, h2, rfl, (List.append_nil _).symm⟩, by simp⟩
  case body size r hm hi hs hr =>
    obtain ⟨bs, h1, h2, h3⟩ := h.head hm
    obtain ⟨_, _, rfl⟩ := ring_callR hr
    have hb := hf.head hm
    obtain ⟨v, h4, h5⟩ := headSize_eq (buf := s.ring.rdst) (by omega)
    rw [hs, Option.some.injEq] at h5
    refine ⟨h.given, by simp, by simp, ?_⟩
    intro sz hsz
    cases hsz
    refine ⟨bs, v, h1, h5, ?_, ?_⟩
    · show min size.toNat (s.ring.rdst.length + 1) = min size.toNat (room s.ring.rdst size).length
      rw [room_length]
      split <;> omega
    show s.ring.taken = _
    rw [h3, if_pos hi, Nat.min_eq_left (by omega), h4]
    simp
  case parse size resp d hm hi hs hd =>
    obtain ⟨bs, v, h1, h2, h3, h4⟩ := h.body size hm
    have hb := hf.length hm hs
    rw [hf.buf] at hs
    refine ⟨h.given, fun _ => ⟨hi, ?_⟩, by simp, by simp⟩
    show Parsed (s.frames ++ [_]) s.ring.taken
    rw [h4, if_pos hi, Nat.min_eq_left (by omega)]
    exact .snoc v _ h1 (by rw [List.length_take, ← h2]; omega)
  case skip size e d hm hi hs hd =>
    obtain ⟨bs, v, h1, h2, h3, h4⟩ := h.body size hm
    have hb := hf.length hm hs
    rw [hf.buf] at hs
    refine ⟨h.given, fun _ => ⟨hi, ?_⟩, by simp, by simp⟩
    show Parsed (s.frames ++ [_]) s.ring.taken
    rw [h4, if_pos hi, Nat.min_eq_left (by omega)]
    exact .snoc v _ h1 (by rw [List.length_take, ← h2]; omega)
  case parseCrash size hm hi hs hd =>
    have hz := hf.size size hm
    have hb := hf.length hm hs
    rw [hf.buf] at hs
    rcases header_start hz.1 hz.2 (hb.symm ▸ hs) with ⟨_, h2⟩ | ⟨h1, resp', h2, h3⟩
    · rw [hd] at h2; cases h2
    · rw [hd] at h3; cases h3
  case stop | mlock | lookup | delete | drop | munlock | decode | send =>
    refine h.keep rfl rfl rfl (.inr ⟨by simp [State.set], ?_⟩)
    simp_all
  all_goals exact h.keep rfl rfl rfl (.inl rfl)

theorem Reach.stream {P : Params} (hP : 4 ≤ P.buf) {ok : State → Act → Prop} {s : State} (h : Reach P ok s) :
    Stream s :=
  h.inv (Stream.init P) fun hr h _ ht => h.trans hP hr.frames ht

/-- The ring buffer of a connection goes through a schedule of its own. -/
theorem Reach.ring {P : Params} {ok : State → Act → Prop} {rok : Ring.State → Ring.Action → Prop}
    (h1 : ∀ s a, ok s (.ring a) → rok s.ring a) (h2 : ∀ r a, inRing a = false → rok r a) {s : State}
    (h : Reach P ok s) : Ring.Reach P.ring rok s.ring := by
  refine h.inv (I := fun s => Ring.Reach P.ring rok s.ring) .init ?_
  intro s s' a _ hr hok ht
  cases ht
  case ring a r ha hst => exact hr.step _ (h1 s a hok) hst
  case rbClose k r _ hst => exact hr.step _ (h2 _ _ rfl) hst
  case read data r _ _ _ hst => exact hr.step _ (h2 _ _ rfl) hst
  case head r _ _ hst => exact hr.step _ (h2 _ _ rfl) hst
  case body size r _ _ _ hst => exact hr.step _ (h2 _ _ rfl) hst
  all_goals exact hr

end Kafka.Conn
