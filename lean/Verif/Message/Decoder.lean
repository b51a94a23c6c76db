import Verif.Base.Go
/-!
Model of `message/decoder.go`.
-/
namespace Kafka

/-- message/decoder.go:26-29 and `io.ErrShortBuffer`. (`errNullString` is never used.) -/
inductive DErr where
  | shortBuffer
  | varIntOverflow
deriving DecidableEq, Repr

/-- message/decoder.go:33-35 -/
def isInsufficientDataError (e : DErr) : Bool := e == .shortBuffer

/-- message/decoder.go:38-42 `Decoder`.  `cap(raw) = len(raw)` is assumed. -/
structure Decoder where
  raw : List Byte
  length : Int
  offset : Int
deriving DecidableEq, Repr

/-- message/decoder.go:45-50 `NewDecoder` -/
def newDecoder (raw : List Byte) (length : Int) : Decoder :=
  { raw := raw, length := length, offset := 0 }

/-- Outcome of a decoder method: a value, an error, or a run-time panic. -/
inductive Res (α : Type) where
  | ok (a : α) (d : Decoder)
  | err (e : DErr) (d : Decoder)
  | panic
deriving DecidableEq, Repr

/-- Decoder methods.  When one returns an error, the value stored in the receiver is not
modelled; the decoder state is. -/
abbrev Dec (α : Type) := Decoder → Res α

/-- `x, err := m(); if err != nil { return err }; f(x)` -/
def Dec.bind {α β : Type} (m : Dec α) (f : α → Dec β) : Dec β := fun d =>
  match m d with
  | .ok a d' => f a d'
  | .err e d' => .err e d'
  | .panic => .panic

def Dec.pure {α : Type} (a : α) : Dec α := fun d => .ok a d

instance : Monad Dec where
  pure := Dec.pure
  bind := Dec.bind

/-- `raw[i]`; `none` is the index panic. -/
def goIndex (raw : List Byte) (i : Int) : Option Byte :=
  if 0 ≤ i then raw[i.toNat]? else none

/-- `raw[a:]`; `none` is the slice-bounds panic. -/
def goSliceFrom (raw : List Byte) (a : Int) : Option (List Byte) :=
  if 0 ≤ a ∧ a ≤ raw.length then some (raw.drop a.toNat) else none

/-- `raw[a:b]` and `raw[a:b:b]`; `none` is the slice-bounds panic. -/
def goSlice (raw : List Byte) (a b : Int) : Option (List Byte) :=
  if 0 ≤ a ∧ a ≤ b ∧ b ≤ raw.length then some ((raw.drop a.toNat).take (b - a).toNat)
  else none

namespace Dec

/-- message/decoder.go:54-57 `Reset` -/
def reset (d : Decoder) (length : Int) : Decoder :=
  { d with length := length, offset := 0 }

/-- message/decoder.go:60-65 `remains` -/
def remains (n : Int) : Dec Unit := fun d =>
  if wrap64 (d.length - d.offset) < n then .err .shortBuffer d else .ok () d

/-- A Go expression evaluated on the decoder that may panic. -/
def expr {α : Type} (f : Decoder → Option α) : Dec α := fun d =>
  match f d with
  | none => .panic
  | some a => .ok a d

/-- `d.offset += n` -/
def advance (n : Int) : Dec Unit := fun d =>
  .ok () { d with offset := wrap64 (d.offset + n) }

/-- `panic` -/
def crash {α : Type} : Dec α := fun _ => .panic

/-- message/decoder.go:77-84 `Bool` -/
def bool : Dec Bool := do
  remains 1
  let b ← expr fun d => goIndex d.raw d.offset
  advance 1
  pure (b == 1)

/-- message/decoder.go:116-123 `Int8` -/
def int8 : Dec Int8 := do
  remains 1
  let b ← expr fun d => goIndex d.raw d.offset
  advance 1
  pure (Int8.ofBitVec b)

/-- message/decoder.go:126-133 `Int16` -/
def int16 : Dec Int16 := do
  remains 2
  let v ← expr fun d => (goSliceFrom d.raw d.offset).bind beUint16
  advance 2
  pure (Int16.ofBitVec v)

/-- message/decoder.go:136-143 `Int32` -/
def int32 : Dec Int32 := do
  remains 4
  let v ← expr fun d => (goSliceFrom d.raw d.offset).bind beUint32
  advance 4
  pure (Int32.ofBitVec v)

/-- message/decoder.go:169-176 `Int64` -/
def int64 : Dec Int64 := do
  remains 8
  let v ← expr fun d => (goSliceFrom d.raw d.offset).bind beUint64
  advance 8
  pure (Int64.ofBitVec v)

/-- message/decoder.go:68-74 `ArrayLength` -/
def arrayLength : Dec Int := do
  let n ← int32
  pure n.toInt

/-- The common tail of `Bytes` and `VarBytes` (message/decoder.go:94-102 and 262-270):
`remains(length)`, then `raw[a:b:b]`, then `offset += length`. -/
def takeBytes (length : Int) : Dec (List Byte) := do
  remains length
  let v ← expr fun d => goSlice d.raw d.offset (wrap64 (d.offset + length))
  advance length
  pure v

/-- message/decoder.go:87-102 `Bytes` (the returned slice is never nil) -/
def bytes : Dec (Slice Byte) := do
  let n ← int32
  let v ← takeBytes n.toInt
  pure (some v)

/-- message/decoder.go:105-113 `Discard` -/
def discard (n : Int) : Dec Unit := do
  remains n
  advance n

/-- `for i := 0; i < n; i++ { item, err := f(); if err != nil { return err }; items[i] = item }` -/
def loop {α : Type} (f : Dec α) : Nat → Dec (List α)
  | 0 => pure []
  | n + 1 => do
    let x ← f
    let xs ← loop f n
    pure (x :: xs)

/-- The common shape of `Int32Array`, `Int64Array`, `StringArray`: `-1` is nil, `make`
panics on other negative lengths (`make` running out of memory is not modelled). -/
def arrayOf {α : Type} (f : Dec α) : Dec (Slice α) := do
  let n ← arrayLength
  if n = -1 then pure none
  else if n < 0 then crash
  else do
    let items ← loop f n.toNat
    pure (some items)

/-- message/decoder.go:146-166 `Int32Array` -/
def int32Array : Dec (Slice Int32) := arrayOf int32

/-- message/decoder.go:179-199 `Int64Array` -/
def int64Array : Dec (Slice Int64) := arrayOf int64

/-- message/decoder.go:212-230 `String` -/
def string : Dec GoString := do
  let n ← int16
  if n = -1 then pure []
  else takeBytes n.toInt

/-- message/decoder.go:202-209 `NullableString`: always a non-nil pointer -/
def nullableString : Dec (Option GoString) := do
  let s ← string
  pure (some s)

/-- message/decoder.go:233-253 `StringArray` -/
def stringArray : Dec (Slice GoString) := arrayOf string

/-- message/decoder.go:273-288 `VarInt`; note the `case -1` -/
def varInt : Dec Int64 := fun d =>
  match goSliceFrom d.raw d.offset with
  | none => .panic
  | some s =>
    let (tmp, n) := varint s
    if n = 0 then .err .shortBuffer { d with offset := d.length }
    else if n = -1 then .err .varIntOverflow { d with offset := d.length }
    else .ok tmp { d with offset := wrap64 (d.offset + n) }

/-- message/decoder.go:255-270 `VarBytes` -/
def varBytes : Dec (Slice Byte) := do
  let n ← varInt
  let v ← takeBytes n.toInt
  pure (some v)

/-- message/decoder.go:301-313: the rune loop `for som < eom { DecodeRune(raw[som:eom]) }`
followed by `string(runes)`.  For a non-positive length the loop does not run at all, so
nothing is sliced. -/
def runeLoop (length : Int) : Dec GoString := expr fun d =>
  if length ≤ 0 then some []
  else (goSlice d.raw d.offset (wrap64 (d.offset + length))).map
    fun s => (runes s).flatMap encodeRune

/-- message/decoder.go:290-315 `VarString` -/
def varString : Dec GoString := do
  let n ← varInt
  remains n.toInt
  let s ← runeLoop n.toInt
  advance n.toInt
  pure s

end Dec
end Kafka

namespace Kafka.Dec

/-- The code generated for a field that is an array of structures, for example
message/messages.gen.go:76-88: a negative length leaves the field as it was (`old`),
otherwise the field is replaced by `n` freshly decoded items.  (`make` running out of
memory is not modelled.) -/
def structs {α : Type} (dec : Dec α) (old : Slice α) : Dec (Slice α) := do
  let n ← arrayLength
  if n ≥ 0 then do
    let items ← loop dec n.toNat
    pure (some items)
  else pure old

end Kafka.Dec
