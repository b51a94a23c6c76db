import Verif.Conn.Lost
/-!
The one buffer into which `messageLoop` reads (gen.conn.go:111), which byte slices in replies share.
-/
set_option linter.unusedSimpArgs false

namespace Kafka

/-- message/decoder.go:87-102 `Bytes`: the bounds `a`, `b` of the slice `d.raw[a:b:b]` that it returns.  (The model
of `Bytes` in Verif.Message.Decoder gives the contents at that moment, `Dec.bytes_at`.) -/
def Dec.bytesAt : Dec (Int × Int) := do
  let n ← Dec.int32
  Dec.remains n.toInt
  let r ← Dec.expr fun d => (goSlice d.raw d.offset (wrap64 (d.offset + n.toInt))).map fun _ =>
    (d.offset, wrap64 (d.offset + n.toInt))
  Dec.advance n.toInt
  pure r

theorem Dec.int32_raw {d d' : Decoder} {n : Int32} (h : Dec.int32 d = .ok n d') : d'.raw = d.raw := by
  simp only [Dec.int32, Bind.bind, Dec.bind, Dec.remains, Dec.expr, Dec.advance, Pure.pure, Dec.pure] at h
  split at h
  · rename_i h1
    split at h1 <;> cases h1
    split at h
    · rename_i h2
      split at h2 <;> cases h2
      cases h; rfl
    · cases h
    · cases h
  · cases h
  · cases h

theorem Dec.bytes_at {d d' : Decoder} {a b : Int} (h : Dec.bytesAt d = .ok (a, b) d') :
    ∃ v, goSlice d.raw a b = some v ∧ Dec.bytes d = .ok (some v) d' := by
  simp only [Dec.bytesAt, Bind.bind, Dec.bind] at h
  simp only [Dec.bytes, Dec.takeBytes, Bind.bind, Dec.bind]
  cases h1 : Dec.int32 d with
  | ok n d1 =>
    rw [h1] at h
    have hr := Dec.int32_raw h1
    simp only at h ⊢
    cases h2 : Dec.remains n.toInt d1 with
    | ok u d2 =>
      have : d2 = d1 := by
        simp only [Dec.remains] at h2
        split at h2 <;> cases h2
        rfl
      subst this
      rw [h2] at h
      simp only [Dec.expr] at h ⊢
      cases h3 : goSlice d2.raw d2.offset (wrap64 (d2.offset + n.toInt)) with
      | none => rw [h3] at h; cases h
      | some v =>
        rw [h3] at h
        simp only [Option.map_some, Dec.advance, Pure.pure, Dec.pure, Res.ok.injEq, Prod.mk.injEq] at h
        obtain ⟨⟨rfl, rfl⟩, rfl⟩ := h
        exact ⟨v, by rw [← hr]; exact h3, rfl⟩
    | err e d2 => rw [h2] at h; cases h
    | panic => rw [h2] at h; cases h
  | err e d1 => rw [h1] at h; cases h
  | panic => rw [h1] at h; cases h

end Kafka

namespace Kafka.Conn

open Kafka

/-- What is in the buffer of `messageLoop` now. -/
def State.memory (s : State) : List Byte :=
  match s.mpc with
  | .inHead => s.ring.rdst
  | .inBody _ => s.ring.rdst.take s.buf.length
  | _ => s.buf

/-- The decoder of the frame being dispatched. -/
def MPc.decoder : MPc → Option Decoder
  | .rlock _ d | .lookup _ d | .delete _ d _ | .runlock d _ | .decode d _ | .send d _ => some d
  | _ => none

theorem ring_got {N : Nat} {a : Ring.Action} {r r' : Ring.State} (h : Ring.step N a r = some r')
    (ha : ∀ dst n, a ≠ .callR dst n) :
    r'.got = r.got ∧ r'.rdst = r.rdst ∨ ∃ b, r'.got = r.got ++ [b] := by
  cases a with
  | callR dst n => exact absurd rfl (ha dst n)
  | callW data n =>
    simp only [Ring.step] at h
    split at h <;> simp only [Option.some.injEq, reduceCtorEq] at h
    subst h; exact .inl ⟨rfl, rfl⟩
  | close => simp only [Ring.step, Option.some.injEq] at h; subst h; exact .inl ⟨rfl, rfl⟩
  | w =>
    left
    simp only [Ring.step, Ring.wStep] at h
    split at h <;> (try split at h) <;> simp only [Option.some.injEq, reduceCtorEq] at h <;>
      (try split at h) <;> subst h <;> simp [Ring.wReleased, Ring.wWaited, Ring.wReturn, Ring.wLoop] <;>
      (try split) <;> (try split) <;> simp
  | r =>
    simp only [Ring.step, Ring.rStep] at h
    split at h <;> (try split at h) <;> simp only [Option.some.injEq, reduceCtorEq] at h <;>
      (try split at h) <;> subst h <;> simp [Ring.rWaited, Ring.rReturn, Ring.rLoop] <;>
      (try split) <;> (try split) <;> simp
  | handR =>
    left
    simp only [Ring.step] at h
    split at h <;> (try split at h) <;> (try split at h) <;> simp only [Option.some.injEq, reduceCtorEq] at h <;>
      subst h <;> simp [Ring.wReleased, Ring.wWaited, Ring.wReturn, Ring.rWaited, Ring.rReturn]
  | handW =>
    left
    simp only [Ring.step] at h
    split at h <;> (try split at h) <;> (try split at h) <;> simp only [Option.some.injEq, reduceCtorEq] at h <;>
      subst h <;> unfold Ring.wWaited Ring.wLoop <;> split <;> exact ⟨rfl, rfl⟩

/-- The buffer changes only when a byte is read from the ring buffer. -/
theorem memory_trans {P : Params} {a : Act} {s s' : State} (hf : Frames P s) (ht : Trans P s a s') :
    s'.ring.got = s.ring.got ∧ s'.memory = s.memory ∨ ∃ b, s'.ring.got = s.ring.got ++ [b] := by
  cases ht
  case ring a r ha hr =>
    rcases ring_got hr (by rintro dst n rfl; cases ha) with ⟨h1, h2⟩ | h
    · exact .inl ⟨h1, by simp [State.memory, h2]⟩
    · exact .inr h
  case read data r h1 h2 h3 hr =>
    rcases ring_got hr (by simp) with ⟨h1, h2⟩ | h
    · exact .inl ⟨h1, by simp [State.memory, h2]⟩
    · exact .inr h
  case rbClose k r h1 hr =>
    rcases ring_got hr (by simp) with ⟨h1, h2⟩ | h
    · exact .inl ⟨h1, by simp [State.memory, h2]⟩
    · exact .inr h
  case head r hm hc hr =>
    obtain ⟨_, _, rfl⟩ := ring_callR hr
    exact .inl ⟨rfl, by simp [State.memory, hm]⟩
  case body size r hm hc hs hr =>
    obtain ⟨_, _, rfl⟩ := ring_callR hr
    refine .inl ⟨rfl, ?_⟩
    simp only [State.memory, hm, room]
    split
    · rw [List.take_left]
    · rw [List.take_length]
  case parse size resp d hm hc hs hd =>
    have hb := hf.length hm hs
    exact .inl ⟨rfl, by simp only [State.memory, hm, hf.buf, ← hb, List.take_length]⟩
  case skip size e d hm hc hs hd =>
    have hb := hf.length hm hs
    exact .inl ⟨rfl, by simp only [State.memory, hm, hf.buf, ← hb, List.take_length]⟩
  case parseCrash size hm hc hs hd =>
    have hz := hf.size size hm
    have hb := hf.length hm hs
    rw [hf.buf] at hs
    rcases header_start hz.1 hz.2 (hb.symm ▸ hs) with ⟨_, h2⟩ | ⟨h1, resp', h2, h3⟩
    · rw [hd] at h2; cases h2
    · rw [hd] at h3; cases h3
  all_goals first
    | exact .inl ⟨rfl, rfl⟩
    | (left; simp_all [State.memory, State.set])

/-- The frame being dispatched is what is in the buffer. -/
theorem Reach.memory {P : Params} {ok : State → Act → Prop} {s : State} (h : Reach P ok s) :
    ∀ d, s.mpc.decoder = some d → d.raw = s.buf := by
  refine h.inv (I := fun s => ∀ d, s.mpc.decoder = some d → d.raw = s.buf) (by simp [Conn.init, MPc.decoder]) ?_
  intro s s' a hr hi hok ht
  clear hok
  have hf := hr.frames
  cases ht
  case parse size resp d hm hc hs hd =>
    have hz := hf.size size hm
    have hb := hf.length hm hs
    rw [hf.buf] at hs
    rcases header_start hz.1 hz.2 (hb.symm ▸ hs) with ⟨_, h2⟩ | ⟨h1, resp', h2, h3⟩
    · rw [hd] at h2; cases h2
    · rw [hd] at h3
      cases h3
      intro d' hd'
      cases hd'
      rfl
  all_goals
    simp only [State.set, MPc.decoder] at hi ⊢
    first
    | exact hi
    | (intro d' hd'; simp_all [MPc.decoder])

end Kafka.Conn
