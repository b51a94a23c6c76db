import Verif.Base.Go
/-!
Specification of the wire format of the protocol primitives
(https://kafka.apache.org/protocol#protocol_types), independent of the encoder and the
decoder: what bytes stand for a value.
-/
namespace Kafka.Wire

/-- `v` in two's complement, `w` bytes, most significant byte first. -/
def bigEndian (w : Nat) (v : Int) : List Byte :=
  (List.range w).reverse.map fun k => BitVec.ofInt 8 (v / 256 ^ k)

def bool (b : Bool) : List Byte := [if b then 1#8 else 0#8]
def int8 (i : Int8) : List Byte := bigEndian 1 i.toInt
def int16 (i : Int16) : List Byte := bigEndian 2 i.toInt
def int32 (i : Int32) : List Byte := bigEndian 4 i.toInt
def int64 (i : Int64) : List Byte := bigEndian 8 i.toInt

/-- STRING: int16 length, then the bytes. -/
def string (s : GoString) : List Byte := int16 (Int16.ofNat s.length) ++ s

/-- NULLABLE_STRING: length -1 is null. -/
def nullableString : Option GoString → List Byte
  | none => int16 (-1)
  | some s => string s

/-- BYTES: int32 length, then the bytes; a nil slice is written as an empty one. -/
def bytes (b : Slice Byte) : List Byte := int32 (Int32.ofNat b.len) ++ b.elems

/-- ARRAY with the null array as length -1. -/
def nullableArray {α : Type} (w : α → List Byte) : Slice α → List Byte
  | none => int32 (-1)
  | some l => int32 (Int32.ofNat l.length) ++ l.flatMap w

def int32Array : Slice Int32 → List Byte := nullableArray int32
def int64Array : Slice Int64 → List Byte := nullableArray int64
def stringArray : Slice GoString → List Byte := nullableArray string

/-- ARRAY of structures; a nil slice is written as an empty array. -/
def array {α : Type} (w : α → List Byte) (s : Slice α) : List Byte :=
  int32 (Int32.ofNat s.len) ++ s.elems.flatMap w

/-- A field that is on the wire only if the version condition holds. -/
def when (c : Prop) [Decidable c] (w : List Byte) : List Byte := if c then w else []

/-- The zig-zag code: 0, -1, 1, -2, 2, ... are numbered 0, 1, 2, 3, 4, ... -/
def zigzag (i : Int) : Nat := if i < 0 then (-2 * i - 1).toNat else (2 * i).toNat

/-- Base 128, least significant group first, top bit set on all bytes but the last. -/
def base128 (n : Nat) : List Byte :=
  if h : n < 128 then [BitVec.ofNat 8 n]
  else BitVec.ofNat 8 (128 + n % 128) :: base128 (n / 128)
termination_by n
decreasing_by omega

/-- VARINT/VARLONG -/
def varInt (i : Int64) : List Byte := base128 (zigzag i.toInt)
def varBytes (b : Slice Byte) : List Byte := varInt (Int64.ofNat b.len) ++ b.elems
def varString (s : GoString) : List Byte := varInt (Int64.ofNat s.length) ++ s

end Kafka.Wire

namespace Kafka

/-! Representability: the values whose length prefix does not overflow. -/

/-- At most 32767 bytes, the largest length an int16 prefix can carry. -/
def FitsString (s : GoString) : Prop := s.length < 2 ^ 15
/-- At most 2147483647 elements. -/
def FitsSlice {α : Type} (s : Slice α) : Prop := s.len < 2 ^ 31
def FitsStrings (s : Slice GoString) : Prop := FitsSlice s ∧ ∀ x ∈ s.elems, FitsString x
/-- an array of structures each of which fits -/
def FitsAll {α : Type} (p : α → Prop) (s : Slice α) : Prop := FitsSlice s ∧ ∀ x ∈ s.elems, p x

/-- What a decoder can tell of a slice written without a null marker: nil reads back as
empty. -/
def Slice.nonNil {α : Type} (s : Slice α) : Slice α := some s.elems

end Kafka

namespace Kafka

/-- The UTF-8 encoding of a sequence of Unicode scalar values (Lean's own). -/
def Wire.utf8 (cs : List Char) : GoString := (cs.flatMap String.utf8EncodeChar).map UInt8.toBitVec

/-- The byte string is the UTF-8 encoding of some text. -/
def ValidUtf8 (s : GoString) : Prop := ∃ cs, s = Wire.utf8 cs

end Kafka
