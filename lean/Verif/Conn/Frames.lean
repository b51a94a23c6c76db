import Verif.Conn.Tokens
import Verif.Message.DecLemmas
import Verif.Ring.Mutex
/-!
Invariants of the connection machine: what reaches a call is a frame with its correlation id.
-/
set_option linter.unusedSimpArgs false

namespace Kafka.Conn

open Kafka

theorem be32_append (b0 b1 b2 b3 : Byte) : be32 (b0 ++ b1 ++ b2 ++ b3) = [b0, b1, b2, b3] := by
  simp only [be32, List.cons.injEq, and_true]
  refine ⟨?_, ?_, ?_, ?_⟩ <;> (ext i hi; simp; try grind)

/-- Reading an int32 at the start of a buffer. -/
theorem int32_start {raw : List Byte} {size : Int} (h1 : -(2 ^ 31) ≤ size) (h2 : size < 2 ^ 31)
    (h3 : size ≤ raw.length) :
    (size < 4 ∧ Dec.int32 { raw := raw, length := size, offset := 0 } =
      .err .shortBuffer { raw := raw, length := size, offset := 0 }) ∨
    (4 ≤ size ∧ ∃ v, raw.take 4 = Wire.int32 v ∧ Dec.int32 { raw := raw, length := size, offset := 0 } =
      .ok v { raw := raw, length := size, offset := 4 }) := by
  have hw : wrap64 (size - 0) = size := by
    unfold wrap64
    rw [Int.sub_zero]
    exact Int.bmod_eq_of_le (by omega) (by omega)
  by_cases hs : size < 4
  · left
    refine ⟨hs, ?_⟩
    show Dec.bind (Dec.remains 4) _ _ = _
    simp only [Dec.bind, Dec.remains, hw, if_pos hs]
  · right
    refine ⟨by omega, ?_⟩
    match raw, h3 with
    | b0 :: b1 :: b2 :: b3 :: t, _ =>
      refine ⟨Int32.ofBitVec (b0 ++ b1 ++ b2 ++ b3), ?_, ?_⟩
      · rw [wire_int32]
        exact (be32_append b0 b1 b2 b3).symm
      · show Dec.bind (Dec.remains 4) _ _ = _
        simp only [Dec.bind, Dec.remains, hw, if_neg hs]
        have hsl : goSliceFrom (b0 :: b1 :: b2 :: b3 :: t) 0 = some (b0 :: b1 :: b2 :: b3 :: t) := by
          unfold goSliceFrom
          rw [if_pos (by constructor <;> omega)]
          rfl
        show Dec.bind (Dec.expr _) _ _ = _
        simp only [Dec.bind, Dec.expr, hsl, Option.bind_some, beUint32]
        rfl
    | [], h | [_], h | [_, _], h | [_, _, _], h => simp at h; omega

/-- The size in the first four bytes. -/
theorem headSize_eq {buf : List Byte} (h : 4 ≤ buf.length) :
    ∃ v : Int32, buf.take 4 = Wire.int32 v ∧ headSize buf = some v.toInt := by
  rcases int32_start (raw := buf) (size := 4) (by omega) (by omega) (by omega) with ⟨h1, _⟩ | ⟨_, v, h2, h3⟩
  · omega
  · exact ⟨v, h2, by rw [headSize, h3]⟩

/-- Decoding the header of a frame: too short, or the correlation id is its first four bytes. -/
theorem header_start {raw : List Byte} {size : Int} (h1 : -(2 ^ 31) ≤ size) (h2 : size < 2 ^ 31)
    (h3 : size ≤ raw.length) :
    (size < 4 ∧ Msg.ResponseHeader.decode 1 {} { raw := raw, length := size, offset := 0 } =
      .err .shortBuffer { raw := raw, length := size, offset := 0 }) ∨
    (4 ≤ size ∧ ∃ resp : Msg.ResponseHeader, raw.take 4 = Wire.int32 resp.CorrelationId ∧
      Msg.ResponseHeader.decode 1 {} { raw := raw, length := size, offset := 0 } =
        .ok resp { raw := raw, length := size, offset := 4 }) := by
  have he : Msg.ResponseHeader.decode 1 {} { raw := raw, length := size, offset := 0 } =
      Dec.bind Dec.int32 (fun x => pure ⟨x⟩) { raw := raw, length := size, offset := 0 } := rfl
  rw [he, Dec.bind]
  rcases int32_start h1 h2 h3 with ⟨h4, h5⟩ | ⟨h4, v, h5, h6⟩
  · exact .inl ⟨h4, by rw [h5]⟩
  · exact .inr ⟨h4, ⟨v⟩, h5, by rw [h6]; rfl⟩

/-- `d` is the decoder after reading the header of a frame with correlation id `id`; it works on a buffer of
`n` bytes. -/
def ReplyTo (n : Nat) (frames : List (List Byte)) (d : Decoder) (id : Int32) : Prop :=
  ∃ payload ∈ frames, Wire.int32 id <+: payload ∧ payload <+: d.raw ∧ d.length = payload.length ∧ d.offset = 4 ∧
    d.raw.length = n

theorem ReplyTo.more {n : Nat} {frames : List (List Byte)} {d : Decoder} {id : Int32} (h : ReplyTo n frames d id)
    (f : List (List Byte)) : ReplyTo n (frames ++ f) d id := by
  obtain ⟨p, h1, h2⟩ := h
  exact ⟨p, List.mem_append_left _ h1, h2⟩

/-- The frame being dispatched, before its request is known. -/
def MPc.header : MPc → Option (Int32 × Decoder)
  | .rlock id d | .lookup id d | .delete id d _ => some (id, d)
  | _ => none

/-- The frame being dispatched and its request. -/
def MPc.reply : MPc → Option (Nat × Decoder)
  | .runlock d (some c) | .decode d c | .send d c => some (c, d)
  | _ => none

theorem ring_rdst {N : Nat} {a : Ring.Action} {r r' : Ring.State} (h : Ring.step N a r = some r')
    (ha : ∀ dst n, a ≠ .callR dst n) : r'.rdst.length = r.rdst.length := by
  cases a with
  | callR dst n => exact absurd rfl (ha dst n)
  | callW data n =>
    simp only [Ring.step] at h
    split at h <;> simp only [Option.some.injEq, reduceCtorEq] at h
    subst h; rfl
  | close => simp only [Ring.step, Option.some.injEq] at h; subst h; rfl
  | w =>
    simp only [Ring.step, Ring.wStep] at h
    split at h <;> (try split at h) <;> simp only [Option.some.injEq, reduceCtorEq] at h <;>
      (try split at h) <;> subst h <;> simp [Ring.wReleased, Ring.wWaited, Ring.wReturn]
  | r =>
    simp only [Ring.step, Ring.rStep] at h
    split at h <;> (try split at h) <;> simp only [Option.some.injEq, reduceCtorEq] at h <;>
      (try split at h) <;> subst h <;> simp [Ring.rWaited, Ring.rReturn]
  | handR =>
    simp only [Ring.step] at h
    split at h <;> (try split at h) <;> (try split at h) <;> simp only [Option.some.injEq, reduceCtorEq] at h <;>
      subst h <;> simp [Ring.wReleased, Ring.wWaited, Ring.wReturn, Ring.rWaited, Ring.rReturn]
  | handW =>
    simp only [Ring.step] at h
    split at h <;> (try split at h) <;> (try split at h) <;> simp only [Option.some.injEq, reduceCtorEq] at h <;>
      subst h <;> simp [Ring.wReleased, Ring.wWaited, Ring.wReturn, Ring.rWaited, Ring.rReturn]

theorem ring_callR {N : Nat} {dst : List Byte} {n : Nat} {r r' : Ring.State}
    (h : Ring.step N (.callR dst n) r = some r') :
    r.rpc = .idle ∧ n ≤ dst.length ∧ r' = { r with rpc := .load1, rdst := dst, rn := n, rorig := dst } := by
  simp only [Ring.step] at h
  split at h <;> simp only [Option.some.injEq, reduceCtorEq] at h
  rename_i hc
  exact ⟨hc.1, hc.2, h.symm⟩

theorem room_length (buf : List Byte) (n : Int) :
    (room buf n).length = buf.length + if (buf.length : Int) < n then 1 else 0 := by
  unfold room
  split <;> simp

/-- What is dispatched, in a channel or returned is a frame with the id of the call. -/
structure Frames (P : Params) (s : State) : Prop where
  buf : s.buf.length = P.buf
  head : s.mpc = .inHead → s.ring.rdst.length = P.buf
  body : ∀ size, s.mpc = .inBody size → s.ring.rdst.length = P.buf + if (P.buf : Int) < size then 1 else 0
  size : ∀ size, s.mpc = .inBody size → -(2 ^ 31) ≤ size ∧ size < 2 ^ 31
  header : ∀ id d, s.mpc.header = some (id, d) → ReplyTo P.buf s.frames d id
  taken : ∀ c d, s.mpc.reply = some (c, d) → ReplyTo P.buf s.frames d (s.calls c).id
  chan : ∀ c d, (s.calls c).chan = some d → ReplyTo P.buf s.frames d (s.calls c).id
  done : ∀ c d, (s.calls c).pc = .done (.reply d) → ReplyTo P.buf s.frames d (s.calls c).id

theorem Frames.init (P : Params) : Frames P (init P) := by
  constructor <;> simp [Conn.init, MPc.header, MPc.reply]

theorem reply_taken {m : MPc} {c : Nat} {d : Decoder} (h : m.reply = some (c, d)) : m.taken = some c := by
  unfold MPc.reply at h
  split at h <;> simp only [Option.some.injEq, Prod.mk.injEq, reduceCtorEq] at h <;> (rw [h.1]; rfl)

/-- Steps that touch neither dispatch nor frames. -/
theorem Frames.keep {P : Params} {s s' : State} (h : Frames P s) (hm : s'.mpc = s.mpc) (hb : s'.buf = s.buf)
    (hf : s'.frames = s.frames) (hr : s'.ring.rdst.length = s.ring.rdst.length)
    (h1 : ∀ c d, s.mpc.reply = some (c, d) → (s'.calls c).id = (s.calls c).id)
    (h2 : ∀ c d, (s'.calls c).chan = some d → (s.calls c).chan = some d ∧ (s'.calls c).id = (s.calls c).id)
    (h3 : ∀ c d, (s'.calls c).pc = .done (.reply d) →
      ((s.calls c).pc = .done (.reply d) ∨ (s.calls c).chan = some d) ∧ (s'.calls c).id = (s.calls c).id) :
    Frames P s' := by
  constructor
  · rw [hb]; exact h.buf
  · rw [hm, hr]; exact h.head
  · rw [hm, hr]; exact h.body
  · rw [hm]; exact h.size
  · rw [hm, hf]; exact h.header
  · rw [hm, hf]; intro c d hc; rw [h1 c d hc]; exact h.taken c d hc
  · rw [hf]; intro c d hc; rw [(h2 c d hc).2]; exact h.chan c d (h2 c d hc).1
  · rw [hf]; intro c d hc; rw [(h3 c d hc).2]
    exact (h3 c d hc).1.elim (h.done c d) (h.chan c d)

theorem headSize_bounds {buf : List Byte} {size : Int} (h : headSize buf = some size) :
    -(2 ^ 31) ≤ size ∧ size < 2 ^ 31 := by
  unfold headSize at h
  split at h <;> simp only [Option.some.injEq, reduceCtorEq] at h <;> subst h
  · rename_i v _ _
    exact ⟨v.le_toInt, v.toInt_lt⟩
  · omega

theorem Frames.length {P : Params} {s : State} (h : Frames P s) {size : Int} (hm : s.mpc = .inBody size)
    (hs : size ≤ s.buf.length) : s.ring.rdst.length = P.buf := by
  rw [h.body size hm, if_neg (by rw [← h.buf]; omega)]; rfl

theorem Frames.trans {P : Params} {a : Act} {s s' : State} (h : Frames P s) (hk : Tokens s)
    (ht : Trans P s a s') : Frames P s' := by
  have k3 := hk.taken
  have k4 := hk.chan
  cases ht
  case start | add | rlock | insert | runlock | wlock | encodeErr | encode | written | wunlock | failed | recv | write |
      writeErr =>
    refine h.keep rfl rfl rfl rfl ?_ ?_ ?_
    · intro j d hj
      have := k3 j (reply_taken hj)
      simp only [State.set]
      grind [CPc.registered]
    · intro j d
      have := k4 j
      simp only [State.set]
      grind [CPc.registered]
    · intro j d
      have := k4 j
      simp only [State.set]
      grind [CPc.registered]
  case readErr | readNext | closing | cancel | rawClose | waitMessage | waitRead | headCrash | bodyCrash | decodeCrash | full =>
    exact h.keep rfl rfl rfl rfl (fun _ _ _ => rfl) (fun _ _ h => ⟨h, rfl⟩) (fun _ _ h => ⟨.inl h, rfl⟩)
  case read data r h1 h2 h3 hr =>
    exact h.keep rfl rfl rfl (ring_rdst hr (by simp)) (fun _ _ _ => rfl) (fun _ _ h => ⟨h, rfl⟩)
      (fun _ _ h => ⟨.inl h, rfl⟩)
  case ring a r ha hr =>
    refine h.keep rfl rfl rfl (ring_rdst hr ?_) (fun _ _ _ => rfl) (fun _ _ h => ⟨h, rfl⟩)
      (fun _ _ h => ⟨.inl h, rfl⟩)
    rintro dst n rfl
    cases ha
  case rbClose k r h1 hr =>
    exact h.keep rfl rfl rfl (ring_rdst hr (by simp)) (fun _ _ _ => rfl) (fun _ _ h => ⟨h, rfl⟩)
      (fun _ _ h => ⟨.inl h, rfl⟩)
  case stop => exact ⟨h.buf, by simp, by simp, by simp, by simp [MPc.header], by simp [MPc.reply], h.chan, h.done⟩
  case head r hm hc hr =>
    obtain ⟨_, _, rfl⟩ := ring_callR hr
    exact ⟨h.buf, fun _ => h.buf, by simp, by simp, by simp [MPc.header], by simp [MPc.reply], h.chan, h.done⟩
  case body size r hm hc hs hr =>
    obtain ⟨_, _, rfl⟩ := ring_callR hr
    have hb := h.head hm
    exact ⟨hb, by simp, by intro sz hsz; cases hsz; show (room _ _).length = _; rw [room_length, hb], by intro sz hsz; cases hsz; exact headSize_bounds hs, by simp [MPc.header],
      by simp [MPc.reply], h.chan, h.done⟩
  case parse size resp d hm hc hs hd =>
    have hb := h.length hm hs
    have hz := h.size size hm
    rw [h.buf] at hs
    refine ⟨hb, by simp, by simp, by simp, ?_, by simp [MPc.reply], fun c d hc => (h.chan c d hc).more _,
      fun c d hc => (h.done c d hc).more _⟩
    rintro id d' hh
    cases hh
    rcases header_start hz.1 hz.2 (hb.symm ▸ hs) with ⟨_, h2⟩ | ⟨h1, resp', h2, h3⟩
    · rw [hd] at h2; cases h2
    · rw [hd] at h3
      cases h3
      have hlen : (s.ring.rdst.take size.toNat).length = size.toNat := by
        rw [List.length_take]; omega
      refine ⟨s.ring.rdst.take size.toNat, by simp, ?_, List.take_prefix _ _, ?_, rfl, hb⟩
      · rw [← h2]
        exact List.take_prefix_take_left (by omega)
      · show size = _
        rw [hlen]; omega
  case skip size e d hm hc hs hd =>
    exact ⟨h.length hm hs, by simp, by simp, by simp, by simp [MPc.header], by simp [MPc.reply],
      fun c d hc => (h.chan c d hc).more _, fun c d hc => (h.done c d hc).more _⟩
  case parseCrash size hm hc hs hd =>
    have hz := h.size size hm
    have hb := h.length hm hs
    rw [h.buf] at hs
    rcases header_start hz.1 hz.2 (hb.symm ▸ hs) with ⟨_, h2⟩ | ⟨h1, resp', h2, h3⟩
    · rw [hd] at h2; cases h2
    · rw [hd] at h3; cases h3
  case mlock id d hm hl =>
    exact ⟨h.buf, by simp, by simp, by simp, by intro id d hh; cases hh; exact h.header id d (by rw [hm]; rfl),
      by simp [MPc.reply], h.chan, h.done⟩
  case lookup id d hm =>
    exact ⟨h.buf, by simp, by simp, by simp, by intro id d hh; cases hh; exact h.header id d (by rw [hm]; rfl),
      by simp [MPc.reply], h.chan, h.done⟩
  case delete id d c hm =>
    have hd := h.header id d (by rw [hm]; rfl)
    have hl := hk.looked id d c hm
    refine ⟨h.buf, by simp, by simp, by simp, by simp [MPc.header], ?_, h.chan, h.done⟩
    intro c' d' hc
    cases c with
    | none => cases hc
    | some c =>
      have hc' : c = c' ∧ d = d' := by simpa [MPc.reply] using hc
      show ReplyTo P.buf s.frames d' (s.calls c').id
      rw [← hc'.1, ← hc'.2, (hk.map id c hl.symm).1]
      exact hd
  case drop d hm =>
    exact ⟨h.buf, by simp, by simp, by simp, by simp [MPc.header], by simp [MPc.reply], h.chan, h.done⟩
  case munlock d c hm =>
    exact ⟨h.buf, by simp, by simp, by simp, by simp [MPc.header],
      fun c' d' hc => h.taken c' d' (by rw [hm]; exact hc), h.chan, h.done⟩
  case decode d c hm hp =>
    have hr := h.taken c d (by rw [hm]; rfl)
    refine ⟨h.buf, by simp [State.set], by simp [State.set], by simp [State.set], by simp [MPc.header, State.set], ?_, ?_, ?_⟩
    · intro c' d' hc
      cases hc
      simpa [State.set] using hr
    · intro j d'
      have := h.chan j d'
      simp only [State.set]
      grind
    · intro j d'
      have := h.done j d'
      simp only [State.set]
      grind
  case send d c hm hp =>
    have hr := h.taken c d (by rw [hm]; rfl)
    refine ⟨h.buf, by simp [State.set], by simp [State.set], by simp [State.set], by simp [MPc.header, State.set],
      by simp [MPc.reply, State.set], ?_, ?_⟩
    · intro j d'
      have := h.chan j d'
      simp only [State.set]
      grind
    · intro j d'
      have := h.done j d'
      simp only [State.set]
      grind

theorem Reach.frames {P : Params} {ok : State → Act → Prop} {s : State} (h : Reach P ok s) : Frames P s :=
  h.inv (Frames.init P) fun hr h _ ht => h.trans hr.tokens ht

end Kafka.Conn
