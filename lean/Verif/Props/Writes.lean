import Verif.Message.BufioCalls
import Verif.Props.Writer
/-!
Property C88: how often `Write` of the network connection is called.
-/
namespace Kafka.Props

/-- The calls of `Write` that `n` bytes need, in pieces of `size` and a last one. -/
def pieces (size n : Nat) : Nat := (n + size - 1) / size

/-- The encoder of a connection after these requests, over any network. -/
def sends (raw : RawWriter) (ps : List Prog) : ConnEncoder := ps.foldl (fun w p => (w.send p).1) (.new raw)

/-- The calls of `Write` in a call of `Do`. -/
def writes (w : ConnEncoder) (p : Prog) : Nat := (w.send p).1.b.raw.calls - w.b.raw.calls

theorem flush_size (b : Bufio) : b.flush.1.size = b.size := by
  unfold Bufio.flush
  split
  · rfl
  · split
    · rfl
    · split <;> rfl

theorem le_pieces {s c n : Nat} (hs : 0 < s) (h : c = 0 ∨ s * (c - 1) < n) : c ≤ pieces s n := by
  unfold pieces
  rcases h with rfl | h
  · exact Nat.zero_le _
  · rw [Nat.le_div_iff_mul_le hs]
    cases c with
    | zero => omega
    | succ c => rw [Nat.mul_comm, Nat.mul_succ]; simp at h; omega

/-- `Do` on a sound connection. -/
theorem send_writes (p : Prog) {w : ConnEncoder} (h : Intact w) :
    writes w p ≤ pieces w.b.size p.bytes.length ∧ w.b.raw.calls ≤ (w.send p).1.b.raw.calls ∧
      ((w.send p).1.b.raw.calls = w.b.raw.calls → (w.send p).1.b.raw = w.b.raw) ∧ (w.send p).1.b.size = w.b.size := by
  obtain ⟨h1, h2⟩ := p.runB_frugal h.bufErr h.err (by rw [h.buf]; exact Nat.zero_le _)
  have hs := w.b.pos
  have hm := h1.mono
  unfold writes ConnEncoder.send
  obtain ⟨c, hc⟩ : ∃ c, (p.runB w).b.raw.calls = w.b.raw.calls + c := ⟨_, (Nat.add_sub_cancel' hm).symm⟩
  cases hx : (p.runB w).err with
  | some x =>
    have h4 := h1.stop (by rw [← h2, hx]; simp)
    rw [h.buf, hc, Nat.mul_add, List.length_nil] at h4
    simp only [hx]
    refine ⟨?_, hm, h1.same, h1.size⟩
    rw [hc, Nat.add_sub_cancel_left]
    refine le_pieces hs ?_
    cases c with
    | zero => exact .inl rfl
    | succ c => rw [Nat.mul_succ] at h4; simp; omega
  | none =>
    have hb := h2.symm.trans hx
    have h3 := h1.fine hb
    rw [h.buf, hc, Nat.mul_add, List.length_nil] at h3
    simp only [hx]
    by_cases hn : (p.runB w).b.buf = []
    · have e : (p.runB w).b.flush = ((p.runB w).b, none) := by unfold Bufio.flush; rw [hb]; simp [hn]
      rw [e]
      refine ⟨?_, hm, h1.same, h1.size⟩
      dsimp only
      rw [hc, Nat.add_sub_cancel_left]
      refine le_pieces hs ?_
      cases c with
      | zero => exact .inl rfl
      | succ c => rw [Nat.mul_succ] at h3; simp; omega
    · obtain ⟨k1, k2, _⟩ := Bufio.flush_calls hb hn
      have hl := List.length_pos_iff.2 hn
      refine ⟨?_, by rw [k1]; omega, fun he => by rw [k1] at he; omega, k2.trans h1.size⟩
      rw [k1, hc, Nat.add_assoc, Nat.add_sub_cancel_left]
      refine le_pieces hs (.inr ?_)
      simp
      omega

/-- A connection is sound, or broken and makes no more writes. -/
theorem sends_state (raw : RawWriter) : ∀ ps : List Prog, (sends raw ps).b.size = 4096 ∧
    (Intact (sends raw ps) ∨ ∃ x, Broken (sends raw ps) x) := by
  intro ps
  unfold sends
  suffices H : ∀ (ps : List Prog) (w : ConnEncoder), w.b.size = 4096 → (Intact w ∨ ∃ x, Broken w x) →
      (ps.foldl (fun w p => (w.send p).1) w).b.size = 4096 ∧ (Intact (ps.foldl (fun w p => (w.send p).1) w) ∨
        ∃ x, Broken (ps.foldl (fun w p => (w.send p).1) w) x) from H ps _ rfl (.inl ⟨rfl, rfl, rfl⟩)
  intro ps
  induction ps with
  | nil => exact fun w h h' => ⟨h, h'⟩
  | cons p ps ih =>
    intro w h h'
    refine ih _ ?_ ?_
    · rcases h' with h' | ⟨x, h'⟩
      · exact (send_writes p h').2.2.2.trans h
      · have e := (p.runB_err h'.bufErr h'.err).1
        show (w.send p).1.b.size = 4096
        unfold ConnEncoder.send
        dsimp only
        split
        · rw [e]; exact h
        · exact (flush_size _).trans (by rw [e]; exact h)
    · rcases h' with h' | ⟨x, h'⟩
      · rcases C59_send (f := p.run) (fun _ => rfl) h' with h1 | ⟨x, k, m, h1⟩
        · exact .inl h1.2.2.1
        · exact .inr ⟨x, h1.2.2.2.2.1⟩
      · exact .inr ⟨x, (C59_broken p h').2.2⟩

/-- Whatever has been sent before and whatever the network does, a call of `Do` whose encode function puts `n` bytes calls
`Write` at most once for every 4096 bytes and once for the rest. -/
theorem C88_writes {f : Encoder → Encoder} {p : Prog} (hp : p.Is f) (raw : RawWriter) (ps : List Prog) :
    writes (sends raw ps) p ≤ pieces 4096 (bytesOf f).length := by
  obtain ⟨h1, h2 | ⟨x, h2⟩⟩ := sends_state raw ps
  · rw [hp.bytes, ← h1]
    exact (send_writes p h2).1
  · unfold writes
    rw [(C59_broken p h2).2.1, Nat.sub_self]
    exact Nat.zero_le _

/-- Up to 4096 bytes, on a connection to which no write has failed, exactly once; and if that is accepted, with all of them. -/
theorem C88_one {f : Encoder → Encoder} {p : Prog} (hp : p.Is f) {raw : RawWriter} {ps : List Prog} (hi : Intact (sends raw ps))
    (h0 : bytesOf f ≠ []) (hl : (bytesOf f).length ≤ 4096) :
    writes (sends raw ps) p = 1 ∧
      (((sends raw ps).send p).2 = none → ((sends raw ps).send p).1.b.raw.out = (sends raw ps).b.raw.out ++ bytesOf f) := by
  obtain ⟨h1, _⟩ := sends_state raw ps
  obtain ⟨k1, k2, k3, _⟩ := send_writes p hi
  have hw := C88_writes hp raw ps
  have hlp := List.length_pos_iff.2 h0
  have hp1 : pieces 4096 (bytesOf f).length = 1 := by
    unfold pieces
    have : (bytesOf f).length + 4096 - 1 = ((bytesOf f).length - 1) + 4096 := by omega
    rw [this, Nat.add_div_right _ (by omega), Nat.div_eq_of_lt (by omega)]
  rw [hp1] at hw
  have hne : ((sends raw ps).send p).1.b.raw.calls ≠ (sends raw ps).b.raw.calls := by
    intro he
    have hr := k3 he
    rcases C59_send hp hi with ⟨_, h3, _⟩ | ⟨x, k, m, _, _, _, _, _, h3, _⟩
    · rw [hr] at h3
      exact h0 (List.self_eq_append_right.1 h3)
    · omega
  refine ⟨by unfold writes at *; omega, fun hn => ?_⟩
  rcases C59_send hp hi with ⟨_, h3, _⟩ | ⟨x, k, m, h3, _⟩
  · exact h3
  · rw [hn] at h3; cases h3

/-- A call that puts nothing does not write. -/
theorem C88_none {f : Encoder → Encoder} {p : Prog} (hp : p.Is f) (raw : RawWriter) (ps : List Prog) (h0 : bytesOf f = []) :
    writes (sends raw ps) p = 0 := by
  have := C88_writes hp raw ps
  rw [h0] at this
  simpa [pieces] using this

theorem sends_writes (raw : RawWriter) : ∀ qs ps : List Prog, (sends raw (ps ++ qs)).b.raw.calls ≤
    (sends raw ps).b.raw.calls + (qs.map fun p => pieces 4096 p.bytes.length).sum
  | [], ps => by simp
  | q :: qs, ps => by
    have h := C88_writes (f := q.run) (p := q) (fun _ => rfl) raw ps
    rw [Prog.Is.bytes (f := q.run) (p := q) (fun _ => rfl)] at h
    have e : sends raw (ps ++ [q]) = ((sends raw ps).send q).1 := by simp [sends]
    have ih := sends_writes raw qs (ps ++ [q])
    unfold writes at h
    rw [e, List.append_assoc, List.singleton_append] at ih
    simp only [List.map_cons, List.sum_cons]
    omega

/-- All requests of a connection together. -/
theorem C88_total (raw : RawWriter) (ps : List Prog) :
    (sends raw ps).b.raw.calls ≤ raw.calls + (ps.map fun p => pieces 4096 p.bytes.length).sum := sends_writes raw ps []

/-- So of the methods of `Broker`. -/
theorem C88_request (b : Broker) (a : Api) (req : a.req.T) (id : Int32) :
    ∃ p : Prog, p.Is ((b.call a req).encode id) ∧ ∀ (raw : RawWriter) (ps : List Prog),
      writes (sends raw ps) p ≤ pieces 4096 (bytesOf ((b.call a req).encode id)).length := by
  obtain ⟨p, hp⟩ := (SendOp.request b a req id).prog
  exact ⟨p, hp, fun raw ps => C88_writes hp raw ps⟩

/-- The bound in numbers. -/
example : pieces 4096 8002 = 2 ∧ pieces 4096 4096 = 1 ∧ pieces 4096 4097 = 2 ∧ pieces 4096 0 = 0 := by decide

/-- A third request of seven bytes on a connection that accepts everything. -/
example : let p : Prog := .seq (.guard (.chunk false [0, 5])) (.guard (.chunk true (goString "topic")))
    let raw : RawWriter := ⟨[], 0, fun _ => none⟩
    p.Is (·.putString (goString "topic")) ∧ Intact (sends raw [p, p]) ∧ writes (sends raw [p, p]) p = 1 ∧
      (sends raw [p, p]).b.raw.calls = 2 := by
  intro p raw
  have hw : sends raw [p, p] = ⟨none, ⟨4096, by omega, [], none,
      ⟨[0, 5, 0x74, 0x6F, 0x70, 0x69, 0x63, 0, 5, 0x74, 0x6F, 0x70, 0x69, 0x63], 2, fun _ => none⟩⟩⟩ := by
    simp [sends, p, raw, ConnEncoder.send, ConnEncoder.new, Bufio.new, Prog.runB, Bufio.write, Bufio.writeString, Bufio.writeLoop,
      Bufio.stringLoop, Bufio.available, Bufio.flush, RawWriter.write, goString]
  refine ⟨fun e => guarded_swap (e.putInt16 5) (goString "topic"), ?_, ?_, ?_⟩
  · rw [hw]; exact ⟨rfl, rfl, rfl⟩
  · rw [hw]
    simp [writes, p, ConnEncoder.send, Prog.runB, Bufio.write, Bufio.writeString, Bufio.writeLoop,
      Bufio.stringLoop, Bufio.available, Bufio.flush, RawWriter.write, goString]
  · rw [hw]

end Kafka.Props
