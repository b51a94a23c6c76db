import Verif.Base.Go
/-!
Model of `message/encoder.go`.
-/
namespace Kafka

/-- An error returned by the target `io.Writer` (its identity is opaque). -/
structure WErr where
  code : Nat
deriving DecidableEq, Repr

/-- message/encoder.go:30-34 `Encoder`, together with its target writer.

The target is an arbitrary `io.Writer`: `faults k` says what its `k`-th `Write` does:
`none` accepts everything, `some (m, x)` accepts the first `m` bytes and returns the
error `x` (the `io.Writer` contract: a short write returns an error).  `out` is
everything accepted so far and `calls` the number of `Write` calls made.  The scratch
array `buf` is not observable and is left out. -/
structure Encoder where
  out : List Byte
  calls : Nat
  faults : Nat → Option (Nat × WErr)
  err : Option WErr

/-- message/encoder.go:37-41 `NewEncoder` over a writer with the given behaviour. -/
def newEncoder (faults : Nat → Option (Nat × WErr)) : Encoder :=
  { out := [], calls := 0, faults := faults, err := none }

namespace Encoder

/-- `_, e.err = e.target.Write(p)` (also `io.WriteString`). -/
def targetWrite (e : Encoder) (p : List Byte) : Encoder :=
  match e.faults e.calls with
  | none => { e with out := e.out ++ p, calls := e.calls + 1, err := none }
  | some (m, x) => { e with out := e.out ++ p.take m, calls := e.calls + 1, err := some x }

/-- message/encoder.go:44-54 `Flush`: the target's own `Flush` result (if it has one) is
the parameter `target`. -/
def flush (e : Encoder) (target : Option WErr) : Option WErr :=
  match e.err with
  | some x => some x
  | none => target

/-- message/encoder.go:79-86 `PutInt8` -/
def putInt8 (e : Encoder) (i : Int8) : Encoder :=
  if e.err.isSome then e else e.targetWrite [i.toBitVec]

/-- message/encoder.go:89-96 `PutInt16` -/
def putInt16 (e : Encoder) (i : Int16) : Encoder :=
  if e.err.isSome then e else e.targetWrite (be16 i.toBitVec)

/-- message/encoder.go:99-106 `PutInt32` -/
def putInt32 (e : Encoder) (i : Int32) : Encoder :=
  if e.err.isSome then e else e.targetWrite (be32 i.toBitVec)

/-- message/encoder.go:127-134 `PutInt64` -/
def putInt64 (e : Encoder) (i : Int64) : Encoder :=
  if e.err.isSome then e else e.targetWrite (be64 i.toBitVec)

/-- message/encoder.go:57-59 `PutArrayLength`: `int32(n)` wraps. -/
def putArrayLength (e : Encoder) (n : Nat) : Encoder := e.putInt32 (Int32.ofNat n)

/-- message/encoder.go:62-68 `PutBool` -/
def putBool (e : Encoder) (b : Bool) : Encoder :=
  if b then e.putInt8 1 else e.putInt8 0

/-- message/encoder.go:71-76 `PutBytes` -/
def putBytes (e : Encoder) (data : Slice Byte) : Encoder :=
  let e := e.putInt32 (Int32.ofNat data.len)
  if e.err.isNone then e.targetWrite data.elems else e

/-- message/encoder.go:109-124 `PutInt32Array` -/
def putInt32Array (e : Encoder) (ii : Slice Int32) : Encoder :=
  if e.err.isSome then e else
  match ii with
  | none => e.putInt32 (-1)
  | some l => l.foldl putInt32 (e.putArrayLength l.length)

/-- message/encoder.go:137-152 `PutInt64Array` -/
def putInt64Array (e : Encoder) (ii : Slice Int64) : Encoder :=
  if e.err.isSome then e else
  match ii with
  | none => e.putInt32 (-1)
  | some l => l.foldl putInt64 (e.putArrayLength l.length)

/-- message/encoder.go:174-179 `PutString`: `int16(len(s))` wraps. -/
def putString (e : Encoder) (s : GoString) : Encoder :=
  let e := e.putInt16 (Int16.ofNat s.length)
  if e.err.isNone then e.targetWrite s else e

/-- message/encoder.go:155-161 `PutNullableString` -/
def putNullableString (e : Encoder) (s : Option GoString) : Encoder :=
  match s with
  | none => e.putInt16 (-1)
  | some s => e.putString s

/-- message/encoder.go:182-197 `PutStringArray` -/
def putStringArray (e : Encoder) (ss : Slice GoString) : Encoder :=
  if e.err.isSome then e else
  match ss with
  | none => e.putInt32 (-1)
  | some l => l.foldl putString (e.putArrayLength l.length)

/-- message/encoder.go:210-217 `PutVarInt` -/
def putVarInt (e : Encoder) (i : Int64) : Encoder :=
  if e.err.isSome then e else e.targetWrite (putVarint i)

/-- message/encoder.go:200-207 `PutVarBytes`: note that the second write happens, and
overwrites `e.err`, even if the first one failed. -/
def putVarBytes (e : Encoder) (data : Slice Byte) : Encoder :=
  if e.err.isSome then e else
  let e := e.putVarInt (Int64.ofNat data.len)
  e.targetWrite data.elems

/-- message/encoder.go:226-232, the rune loop of `PutVarString` -/
def putRunes (e : Encoder) : List Nat → Encoder
  | [] => e
  | r :: rs =>
    let e := e.targetWrite (encodeRune r)
    if e.err.isSome then e else e.putRunes rs

/-- message/encoder.go:220-233 `PutVarString`: writes the length of the string, then the
UTF-8 encoding of each rune of `range s`; the loop is entered even if writing the length
failed. -/
def putVarString (e : Encoder) (s : GoString) : Encoder :=
  if e.err.isSome then e else
  let e := e.putVarInt (Int64.ofNat s.length)
  e.putRunes (runes s)

/-- message/encoder.go:164-171 `PutRecordHeader` -/
def putRecordHeader (e : Encoder) (key value : GoString) : Encoder :=
  if e.err.isSome then e else
  let e := e.putVarString key
  e.putVarString value

end Encoder
end Kafka

namespace Kafka.Encoder

/-- The code generated for a field that is an array of structures, for example
message/messages.gen.go:55-58: `PutArrayLength(len)` and then every item. -/
def putStructs {α : Type} (enc : α → Encoder → Encoder) (s : Slice α) (e : Encoder) : Encoder :=
  s.elems.foldl (fun e x => enc x e) (e.putArrayLength s.len)

end Kafka.Encoder
