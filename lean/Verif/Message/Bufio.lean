import Verif.Message.EncLemmas
/-!
Model of `bufio.Writer` of the Go standard library, into which the encoder of a connection writes (gen.conn.go:73), over
the network connection.

The source of the standard library is not in /repo; this follows `Flush`, `Write` and `WriteString` of `bufio/bufio.go` as of
Go 1.13.  Later versions of `WriteString` differ for underlying writers with a `WriteString` of their own, which network
connections do not have.
-/
namespace Kafka

/-- The writing side of a network connection: what it has accepted, and what its `k`-th `Write` does (`none`: accept
everything; `some (m, x)`: accept at most `m` bytes and return the error `x`). -/
structure RawWriter where
  out : List Byte
  calls : Nat
  faults : Nat → Option (Nat × WErr)

/-- `Write`: the number of bytes accepted and the error. -/
def RawWriter.write (r : RawWriter) (p : List Byte) : RawWriter × Nat × Option WErr :=
  match r.faults r.calls with
  | none => ({ r with out := r.out ++ p, calls := r.calls + 1 }, p.length, none)
  | some (m, x) => ({ r with out := r.out ++ p.take m, calls := r.calls + 1 }, min m p.length, some x)

/-- `bufio.Writer`; `buf` is `b.buf[:b.n]`, `size` is `len(b.buf)`. -/
structure Bufio where
  size : Nat
  pos : 0 < size
  buf : List Byte
  err : Option WErr
  raw : RawWriter

namespace Bufio

/-- `bufio.NewWriter` -/
def new (raw : RawWriter) : Bufio := { size := 4096, pos := by omega, buf := [], err := none, raw := raw }

/-- `Available` -/
def available (b : Bufio) : Nat := b.size - b.buf.length

/-- `Flush` -/
def flush (b : Bufio) : Bufio × Option WErr :=
  match b.err with
  | some x => (b, some x)
  | none =>
    if b.buf = [] then (b, none) else
    match b.raw.write b.buf with
    | (r, n, some x) => ({ b with raw := r, buf := b.buf.drop n, err := some x }, some x)
    | (r, _, none) => ({ b with raw := r, buf := [] }, none)

/-- `n = copy(b.buf[b.n:], p); b.n += n; b.Flush()` -/
def fill (b : Bufio) (p : List Byte) : Bufio := ({ b with buf := b.buf ++ p.take b.available }.flush).1

theorem fill_buf {b : Bufio} {p : List Byte} (h : (b.fill p).err = none) : (b.fill p).buf = [] := by
  unfold fill flush at *
  split at h
  · simp_all
  · split
    · simp_all
    · split at h
      · simp_all
      · split at h
        · simp at h
        · simp_all

/-- The loop of `Write`: what is left of `p` afterwards. -/
def writeLoop (b : Bufio) (p : List Byte) : Bufio × List Byte :=
  if b.available < p.length ∧ b.err = none then
    if b.buf = [] then
      match _h : b.raw.write p with
      | (r, n, none) => writeLoop { b with raw := r } (p.drop n)
      | (r, n, some x) => ({ b with raw := r, err := some x }, p.drop n)
    else if (b.fill p).err = none then writeLoop (b.fill p) (p.drop b.available)
    else (b.fill p, p.drop b.available)
  else (b, p)
termination_by (p.length, b.buf.length)
decreasing_by
  · unfold RawWriter.write at _h
    split at _h
    · simp only [Prod.mk.injEq] at _h
      obtain ⟨_, rfl, _⟩ := _h
      apply Prod.Lex.left
      rw [List.length_drop]
      omega
    · simp at _h
  · by_cases ha : b.available = 0
    · rw [ha, List.drop_zero]
      apply Prod.Lex.right
      rw [fill_buf (by assumption), List.length_nil]
      exact List.length_pos_iff.2 (by assumption)
    · apply Prod.Lex.left
      rw [List.length_drop]
      omega

/-- `Write`: the writer afterwards, and the error. -/
def write (b : Bufio) (p : List Byte) : Bufio × Option WErr :=
  let (b, p) := b.writeLoop p
  match b.err with
  | some x => (b, some x)
  | none => ({ b with buf := b.buf ++ p }, none)

/-- The loop of `WriteString`. -/
def stringLoop (b : Bufio) (p : List Byte) : Bufio × List Byte :=
  if b.available < p.length ∧ b.err = none then
    if (b.fill p).err = none then stringLoop (b.fill p) (p.drop b.available)
    else (b.fill p, p.drop b.available)
  else (b, p)
termination_by (p.length, b.buf.length)
decreasing_by
  by_cases ha : b.available = 0
  · rw [ha, List.drop_zero]
    apply Prod.Lex.right
    rw [fill_buf (by assumption), List.length_nil]
    have := b.pos
    unfold available at ha
    omega
  · apply Prod.Lex.left
    rw [List.length_drop]
    omega

/-- `WriteString` -/
def writeString (b : Bufio) (p : List Byte) : Bufio × Option WErr :=
  let (b, p) := b.stringLoop p
  match b.err with
  | some x => (b, some x)
  | none => ({ b with buf := b.buf ++ p }, none)

end Bufio

/-- What an encoder method does with its target: writes of byte sequences (with `Write`, or `io.WriteString` if `str`), some of
them only when there has been no error. -/
inductive Prog where
  | skip
  | chunk (str : Bool) (c : List Byte)
  | seq (p q : Prog)
  | guard (p : Prog)

/-- On the encoder of `Verif/Message/Encoder.lean`, whose target is any writer. -/
def Prog.run : Prog → Encoder → Encoder
  | .skip, e => e
  | .chunk _ c, e => e.targetWrite c
  | .seq p q, e => q.run (p.run e)
  | .guard p, e => if e.err.isSome then e else p.run e

/-- The method `f` does this. -/
def Prog.Is (p : Prog) (f : Encoder → Encoder) : Prop := ∀ e, f e = p.run e

def Prog.bytes : Prog → List Byte
  | .skip => []
  | .chunk _ c => c
  | .seq p q => p.bytes ++ q.bytes
  | .guard p => p.bytes

/-- The encoder of a connection: its field `err`, and its target. -/
structure ConnEncoder where
  err : Option WErr
  b : Bufio

/-- gen.conn.go:73 `message.NewEncoder(bufio.NewWriter(raw))` -/
def ConnEncoder.new (raw : RawWriter) : ConnEncoder := ⟨none, .new raw⟩

/-- On the encoder of a connection. -/
def Prog.runB : Prog → ConnEncoder → ConnEncoder
  | .skip, s => s
  | .chunk str c, s =>
    let (b, x) := if str then s.b.writeString c else s.b.write c
    ⟨x, b⟩
  | .seq p q, s => q.runB (p.runB s)
  | .guard p, s => if s.err.isSome then s else p.runB s

/-- gen.conn.go:165-166: `encode(c.encoder, correlationID)` and `c.encoder.Flush()`, message/encoder.go:44-54. -/
def ConnEncoder.send (s : ConnEncoder) (p : Prog) : ConnEncoder × Option WErr :=
  let s := p.runB s
  match s.err with
  | some x => (s, some x)
  | none => ({ s with b := s.b.flush.1 }, s.b.flush.2)

end Kafka
