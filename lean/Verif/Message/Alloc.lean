import Verif.Message.Steps
/-!
Memory requested while decoding.  The statement forms of Verif/Message/Steps.lean once more, each with the number of
elements it asks Go's run-time for: `n` for `make([]T, n)`, the number of bytes for the copy `string(raw[a:b])`.
(`Bytes` returns a part of the buffer and asks for nothing.)  Elements are counted, whatever their size.

`make` comes before the elements are read (message/decoder.go:157, 189, 243; message/messages.gen.go:82 and the other
121 places), so the count does not depend on whether they are there.
-/
namespace Kafka

/-- A decoder method with what it has asked for, also when it returns an error or panics. -/
abbrev ADec (α : Type) := Decoder → Res α × Nat

namespace ADec

/-- Asks for nothing. -/
def free {α : Type} (m : Dec α) : ADec α := fun d => (m d, 0)

def bind {α β : Type} (m : ADec α) (f : α → ADec β) : ADec β := fun d =>
  match m d with
  | (.ok a d', n) => ((f a d').1, n + (f a d').2)
  | (.err e d', n) => (.err e d', n)
  | (.panic, n) => (.panic, n)

def pure {α : Type} (a : α) : ADec α := free (Dec.pure a)

/-- `make([]T, n)`, followed by `m` -/
def make {α : Type} (n : Nat) (m : ADec α) : ADec α := fun d => ((m d).1, n + (m d).2)

/-- as `Dec.loop` -/
def loop {α : Type} (f : ADec α) : Nat → ADec (List α)
  | 0 => pure []
  | n + 1 => bind f fun x => bind (loop f n) fun xs => pure (x :: xs)

/-- message/decoder.go:212-230 `String`: the copy is made when the bytes are there -/
def string : ADec GoString := fun d =>
  (Dec.string d, match Dec.string d with | .ok s _ => s.length | _ => 0)

/-- message/decoder.go:146-166, 179-199, 233-253 -/
def arrayOf {α : Type} (f : ADec α) : ADec (Slice α) :=
  bind (free Dec.arrayLength) fun n =>
    if n = -1 then pure none
    else if n < 0 then free Dec.crash
    else make n.toNat (bind (loop f n.toNat) fun items => pure (some items))

def bool : ADec Bool := free Dec.bool
def int8 : ADec Int8 := free Dec.int8
def int16 : ADec Int16 := free Dec.int16
def int32 : ADec Int32 := free Dec.int32
def int64 : ADec Int64 := free Dec.int64
def bytes : ADec (Slice Byte) := free Dec.bytes
def int32Array : ADec (Slice Int32) := arrayOf int32
def int64Array : ADec (Slice Int64) := arrayOf int64
def stringArray : ADec (Slice GoString) := arrayOf string

/-- message/messages.gen.go:79-88 and the like, as `Dec.structs` -/
def structs {α : Type} (dec : ADec α) (old : Slice α) : ADec (Slice α) :=
  bind (free Dec.arrayLength) fun n =>
    if n ≥ 0 then make n.toNat (bind (loop dec n.toNat) fun items => pure (some items))
    else pure old

/-- as `Dec.field` -/
def field {τ α : Type} (m : ADec α) (set : τ → α → τ) : τ → ADec τ := fun t => bind m fun x => pure (set t x)

/-- as `Dec.fieldStructs` -/
def fieldStructs {τ α : Type} (dec : ADec α) (get : τ → Slice α) (set : τ → Slice α → τ) : τ → ADec τ :=
  fun t => bind (structs dec (get t)) fun x => pure (set t x)

/-- as `Dec.andThen` -/
def andThen {τ : Type} (f g : τ → ADec τ) : τ → ADec τ := fun t => bind (f t) g

@[inherit_doc] infixl:55 " ;>> " => ADec.andThen

/-- as `Dec.onlyIf` -/
def onlyIf {τ : Type} (c : Prop) [Decidable c] (f : τ → ADec τ) : τ → ADec τ :=
  fun t => if c then f t else pure t

def nop {τ : Type} : τ → ADec τ := fun t => pure t

end ADec

end Kafka
