import Verif.Message.BufioLemmas
import Verif.Props.Bytes
import Verif.Props.Close
/-!
Property C59: what `Flush` reports and what has reached the network connection.
-/
set_option linter.unusedSimpArgs false

namespace Kafka.Props

open Conn

/-- What may be done with an encoder: every `Put` method and the `Encode` method of every message (`PutOp`), the methods that
write variable-length values, and the encoding of the request of an API method. -/
inductive SendOp where
  | put (op : PutOp)
  | varBytes (s : Slice Byte)
  | varString (s : GoString)
  | recordHeader (key value : GoString)
  | request (b : Broker) (a : Api) (req : a.req.T) (id : Int32)

/-- The call. -/
def SendOp.run : SendOp → Encoder → Encoder
  | .put op => op.run
  | .varBytes s => (·.putVarBytes s)
  | .varString s => (·.putVarString s)
  | .recordHeader k v => (·.putRecordHeader k v)
  | .request b a req id => (b.call a req).encode id

theorem runes_prog : ∀ rs : List Nat, ∃ p : Prog, p.Is (·.putRunes rs)
  | [] => ⟨.skip, fun _ => rfl⟩
  | r :: rs => by
    obtain ⟨p, hp⟩ := runes_prog rs
    refine ⟨.seq (.chunk false (encodeRune r)) (.guard p), fun e => ?_⟩
    simp only [Prog.run, Encoder.putRunes]
    rw [← hp]
    rfl

theorem varString_prog (s : GoString) : ∃ p : Prog, p.Is (·.putVarString s) := by
  obtain ⟨p, hp⟩ := runes_prog (runes s)
  refine ⟨.guard (.seq (.guard (.chunk false (putVarint (Int64.ofNat s.length)))) p), fun e => ?_⟩
  simp only [Prog.run, Encoder.putVarString, Encoder.putVarInt]
  rw [← hp]

/-- Each of them is a sequence of writes to the target, some of them conditional on there being no error. -/
theorem SendOp.prog (op : SendOp) : ∃ p : Prog, p.Is op.run := by
  cases op with
  | put op => exact op.emits.prog
  | varBytes s =>
    exact ⟨.guard (.seq (.guard (.chunk false (putVarint (Int64.ofNat s.len)))) (.chunk false s.elems)), fun e => rfl⟩
  | varString s => exact varString_prog s
  | recordHeader k v =>
    obtain ⟨p, hp⟩ := varString_prog k
    obtain ⟨q, hq⟩ := varString_prog v
    refine ⟨.guard (.seq p q), fun e => ?_⟩
    simp only [Prog.run, SendOp.run, Encoder.putRecordHeader]
    rw [← hp, ← hq]
  | request b a req id => exact (call_emits b a req id).prog

/-- So is every sequence of them: the theorems below are about every function that a user of `Do` can write. -/
theorem C59_methods : ∀ ops : List SendOp, ∃ p : Prog, p.Is fun e => ops.foldl (fun e op => op.run e) e
  | [] => ⟨.skip, fun _ => rfl⟩
  | op :: ops => by
    obtain ⟨p, hp⟩ := op.prog
    obtain ⟨q, hq⟩ := C59_methods ops
    refine ⟨.seq p q, fun e => ?_⟩
    simp only [Prog.run, List.foldl_cons]
    rw [← hp, ← hq]

/-- The encoder of a connection on which every `Flush` has succeeded so far. -/
structure Intact (w : ConnEncoder) : Prop where
  err : w.err = none
  bufErr : w.b.err = none
  buf : w.b.buf = []

/-- The encoder of a connection to which a write has failed with `x`. -/
structure Broken (w : ConnEncoder) (x : WErr) : Prop where
  bufErr : w.b.err = some x
  err : w.err = none ∨ w.err = some x

/-- The writes of the network connection numbered `i` to `j` all succeed. -/
def AllFine (r : RawWriter) (i j : Nat) : Prop := ∀ k, i ≤ k → k < j → r.faults k = none

/-- `Do` on a sound connection: if `Flush` reports no error, exactly the bytes of the request have been written, all of them, in
order; if it reports one, it is the error the last write has returned, the first to fail, and the bytes that have been accepted are
the first `k` of the request. -/
theorem C59_send {f : Encoder → Encoder} {p : Prog} (hp : p.Is f) {w : ConnEncoder} (h : Intact w) :
    let w' := (w.send p).1
    ((w.send p).2 = none ∧ w'.b.raw.out = w.b.raw.out ++ bytesOf f ∧ Intact w' ∧ AllFine w.b.raw w.b.raw.calls w'.b.raw.calls) ∨
    ∃ x k m, (w.send p).2 = some x ∧ bytesOf f ≠ [] ∧ k ≤ (bytesOf f).length ∧
      w'.b.raw.out = w.b.raw.out ++ (bytesOf f).take k ∧ Broken w' x ∧ w.b.raw.calls < w'.b.raw.calls ∧
      w.b.raw.faults (w'.b.raw.calls - 1) = some (m, x) ∧ AllFine w.b.raw w.b.raw.calls (w'.b.raw.calls - 1) := by
  obtain ⟨h1, h2⟩ := p.runB_sent h.bufErr h.err
  rw [hp.bytes]
  have key : ∀ {b : Bufio} {x : WErr} {e : Option WErr}, Passed w.b b p.bytes → b.err = some x → (e = none ∨ e = some x) →
      ∃ y k m, some x = some y ∧ p.bytes ≠ [] ∧ k ≤ p.bytes.length ∧ b.raw.out = w.b.raw.out ++ p.bytes.take k ∧
        Broken ⟨e, b⟩ y ∧ w.b.raw.calls < b.raw.calls ∧ w.b.raw.faults (b.raw.calls - 1) = some (m, y) ∧
        AllFine w.b.raw w.b.raw.calls (b.raw.calls - 1) := by
    intro b x e hs hx he
    obtain ⟨h3, k, m, h4, h5, h6, h7⟩ := hs.stop x hx
    obtain ⟨u, hu⟩ := hs.mono
    have hu' := hs.pre
    rw [h.buf, List.append_nil, ← hu, List.prefix_append_right_inj] at hu'
    refine ⟨x, u.length, m, rfl, by simpa [h.buf] using h3, hu'.length_le, ?_, ⟨hx, he⟩, by omega, ?_, ?_⟩
    · rw [← List.prefix_iff_eq_take.1 hu', hu]
    · rw [h4]; exact h6
    · rw [h4]; exact fun j hj hj' => h7 j hj hj'
  unfold ConnEncoder.send
  cases hx : (p.runB w).err with
  | some x =>
    simp only [hx]
    exact .inr (key h1 (h2.symm.trans hx) (.inr hx))
  | none =>
    simp only [hx]
    have hb := h2.symm.trans hx
    obtain ⟨h3, h4, h5⟩ := flush_sent hb
    have hs := h1.trans hb h3
    rw [List.append_nil] at hs
    rw [h4]
    cases he : (p.runB w).b.flush.1.err with
    | some x => exact .inr (key hs he (.inl rfl))
    | none =>
      refine .inl ⟨rfl, ?_, ⟨rfl, he, h5 he⟩, hs.clean he⟩
      have := hs.full he
      rwa [h5 he, h.buf, List.append_nil, List.append_nil] at this

/-- After that every `Flush` reports the same error, and nothing is written, not even tried to. -/
theorem C59_broken (p : Prog) {w : ConnEncoder} {x : WErr} (h : Broken w x) :
    (w.send p).2 = some x ∧ (w.send p).1.b.raw = w.b.raw ∧ Broken (w.send p).1 x := by
  obtain ⟨h1, h2, _⟩ := p.runB_err h.bufErr h.err
  unfold ConnEncoder.send
  rcases h2 with h2 | h2
  · simp only [h2]
    have hb : (p.runB w).b.err = some x := by rw [h1]; exact h.bufErr
    rw [flush_err hb]
    exact ⟨rfl, by rw [h1], hb, .inl rfl⟩
  · simp only [h2]
    exact ⟨trivial, by rw [h1], by rw [h1]; exact h.bufErr, .inr h2⟩

/-- A writer with a buffer of four bytes over a connection whose second write accepts one byte and fails: the string goes out in
two parts, the second of them cut; `Flush` reports it. -/
example : let w : ConnEncoder := ⟨none, ⟨4, by omega, [], none, ⟨[9], 0, fun k => if k = 1 then some (1, ⟨7⟩) else none⟩⟩⟩
    let p : Prog := .seq (.guard (.chunk false [0, 5])) (.guard (.chunk true (goString "topic")))
    p.Is (·.putString (goString "topic")) ∧ Intact w ∧ (w.send p).2 = some ⟨7⟩ ∧ (w.send p).1.b.raw.out = [9, 0, 5, 0x74, 0x6F, 0x70] ∧
    (w.send p).1.b.raw.calls = 2 := by
  intro w p
  refine ⟨fun e => ?_, ⟨rfl, rfl, rfl⟩, ?_⟩
  · show e.putString _ = _
    exact guarded_swap (e.putInt16 5) (goString "topic")
  · simp [w, p, ConnEncoder.send, Prog.runB, Bufio.write, Bufio.writeString, Bufio.writeLoop, Bufio.stringLoop, Bufio.available,
      Bufio.fill, Bufio.flush, RawWriter.write, goString]

/-- The network connection accepts everything: the encoder of a new connection. -/
example (raw : RawWriter) : Intact (.new raw) := ⟨rfl, rfl, rfl⟩

/-- The state of the encoder corresponds to that of the machine of the connection. -/
structure Shows (w : ConnEncoder) (s : Conn.State) : Prop where
  wire : w.b.raw.out = s.wire
  fine : s.werr = none → Intact w
  broken : ∀ x, s.werr = some x → Broken w x

/-- The machine of the connection (C32 to C38, C49 to C58) does what `Do` does with that encoder: encode, write in pieces, report
the error. -/
theorem C59_machine {P : Params} {f : Encoder → Encoder} {p : Prog} (hp : p.Is f) {w : ConnEncoder} {s : Conn.State} (h : Shows w s)
    {c : Nat} (hpc : (s.calls c).pc = .encode) (hf : (s.calls c).job.frame (s.calls c).id = bytesOf f) (hc : s.crashed = false)
    (hr : s.rawClosed = false) :
    ∃ s', Leads P s s' ∧ Shows (w.send p).1 s' ∧ (s'.calls c).pc = .wunlock (w.send p).2 := by
  cases hw : s.werr with
  | some x =>
    obtain ⟨h1, h2, h3⟩ := C59_broken p (h.broken x hw)
    refine Leads.next (.call c) (by simp [Conn.step, callStep, hc, hpc, hw]; rfl) ⟨_, .refl _, ⟨?_, ?_, ?_⟩, ?_⟩
    · rw [h2]; exact h.wire
    · intro hn
      simp [State.set, hw] at hn
    · intro y hy
      simp only [State.set, hw, Option.some.injEq] at hy
      rw [← hy]; exact h3
    · simp [State.set, h1]
  | none =>
    rcases C59_send hp (h.fine hw) with ⟨h1, h2, h3, _⟩ | ⟨x, k, m, h1, h2, h3, h4, h5, _⟩
    · refine Leads.next (.call c) (by simp [Conn.step, callStep, hc, hpc, hw, hf]; rfl) ?_
      by_cases hb : bytesOf f = []
      · refine Leads.next (.call c) (by simp [Conn.step, callStep, hc, State.set, hb]; rfl) ⟨_, .refl _, ⟨?_, fun _ => h3, ?_⟩, ?_⟩
        · simp [h2, hb, h.wire]
        · intro y hy
          simp [hw] at hy
        · simp [h1]
      · refine Leads.next (.write c (bytesOf f).length) (by
          simp [Conn.step, hc, State.set, hr, List.length_pos_iff.2 hb]; rfl) ?_
        refine Leads.next (.call c) (by simp [Conn.step, callStep, hc, State.set]; rfl) ⟨_, .refl _, ⟨?_, fun _ => h3, ?_⟩, ?_⟩
        · simp [h2, h.wire]
        · intro y hy
          simp [hw] at hy
        · simp [h1]
    · refine Leads.next (.call c) (by simp [Conn.step, callStep, hc, hpc, hw, hf]; rfl) ?_
      refine Leads.next (.writeErr c k x) (by simp [Conn.step, hc, State.set, hr, h2, h3]; rfl) ⟨_, .refl _, ⟨?_, ?_, ?_⟩, ?_⟩
      · simp [h4, h.wire]
      · intro hn
        simp at hn
      · intro y hy
        simp only [Option.some.injEq] at hy
        rw [← hy]; exact h5
      · simp [h1]

end Kafka.Props
