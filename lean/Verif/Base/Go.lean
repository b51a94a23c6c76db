/-!
Go values and the Go standard library functions the code calls.

Conventions (recorded in DESIGN.md):
* a Go `byte` is `Byte = BitVec 8`; a Go `string` is its bytes, not necessarily UTF-8;
* a Go slice is `Option (List α)`: `none` is nil, `some xs` a non-nil slice;
* `int` is 64 bits wide: unbounded `Int`, reduced with `wrap64` wherever the code can
  overflow; `int8/16/32/64` are Lean's wrapping `Int8/16/32/64`.
-/
namespace Kafka

abbrev Byte := BitVec 8
/-- A Go string: any sequence of bytes. -/
abbrev GoString := List Byte
/-- A Go slice; `none` is nil. -/
abbrev Slice (α : Type) := Option (List α)

/-- The elements a `range`/index loop over the slice visits (`len(nil) = 0`). -/
def Slice.elems {α : Type} (s : Slice α) : List α := s.getD []

/-- Go `len`. -/
def Slice.len {α : Type} (s : Slice α) : Nat := s.elems.length

/-- Reduction of a mathematical integer to a 64-bit Go `int`. -/
def wrap64 (x : Int) : Int := x.bmod (2 ^ 64)

/-! ### `encoding/binary`, BigEndian (Go 1.13 src/encoding/binary/binary.go) -/

/-- `BigEndian.PutUint16` -/
def be16 (v : BitVec 16) : List Byte := [v.extractLsb' 8 8, v.extractLsb' 0 8]
/-- `BigEndian.PutUint32` -/
def be32 (v : BitVec 32) : List Byte :=
  [v.extractLsb' 24 8, v.extractLsb' 16 8, v.extractLsb' 8 8, v.extractLsb' 0 8]
/-- `BigEndian.PutUint64` -/
def be64 (v : BitVec 64) : List Byte :=
  [v.extractLsb' 56 8, v.extractLsb' 48 8, v.extractLsb' 40 8, v.extractLsb' 32 8,
   v.extractLsb' 24 8, v.extractLsb' 16 8, v.extractLsb' 8 8, v.extractLsb' 0 8]

/-- `BigEndian.Uint16(b)`: `none` is the index-out-of-range panic. -/
def beUint16 : List Byte → Option (BitVec 16)
  | b0 :: b1 :: _ => some (b0 ++ b1)
  | _ => none
/-- `BigEndian.Uint32(b)` -/
def beUint32 : List Byte → Option (BitVec 32)
  | b0 :: b1 :: b2 :: b3 :: _ => some (b0 ++ b1 ++ b2 ++ b3)
  | _ => none
/-- `BigEndian.Uint64(b)` -/
def beUint64 : List Byte → Option (BitVec 64)
  | b0 :: b1 :: b2 :: b3 :: b4 :: b5 :: b6 :: b7 :: _ =>
    some (b0 ++ b1 ++ b2 ++ b3 ++ b4 ++ b5 ++ b6 ++ b7)
  | _ => none

/-! ### `encoding/binary`, varints (Go 1.13 src/encoding/binary/varint.go) -/

/-- `PutUvarint`: the loop `for x >= 0x80 { buf[i] = byte(x) | 0x80; x >>= 7 }`.
`x` is the `uint64` as a number; ten bytes always suffice, and the 16 byte scratch
buffer of the callers is never exceeded. -/
def putUvarint (x : Nat) : List Byte :=
  if h : x < 0x80 then [BitVec.ofNat 8 x]
  else BitVec.ofNat 8 (x % 0x80 + 0x80) :: putUvarint (x / 0x80)
termination_by x
decreasing_by omega

/-- `PutVarint`: `ux := uint64(x) << 1; if x < 0 { ux = ^ux }`. -/
def zigzag (x : Int64) : BitVec 64 :=
  let ux := x.toBitVec <<< 1
  if x < 0 then ~~~ux else ux

/-- `PutVarint` -/
def putVarint (x : Int64) : List Byte := putUvarint (zigzag x).toNat

/-- The loop of `Uvarint`; `i` is the index, `s = 7 i` the shift, `x` the accumulator.
Result `(value, n)`: `n > 0` bytes read, `n = 0` buffer too small, `n < 0` overflow with
`-n` bytes read.  `x | uint64(b)<<s` is written with `BitVec 64` shifts, so bits shifted
out are lost as in Go. -/
def uvarintLoop (x : BitVec 64) (i : Nat) : List Byte → BitVec 64 × Int
  | [] => (0, 0)
  | b :: rest =>
    if b.toNat < 0x80 then
      if i > 9 || (i == 9 && b.toNat > 1) then (0, -((i : Int) + 1))
      else (x ||| (b.setWidth 64 <<< (7 * i)), (i : Int) + 1)
    else uvarintLoop (x ||| ((b &&& 0x7f#8).setWidth 64 <<< (7 * i))) (i + 1) rest

/-- `Uvarint` -/
def uvarint (buf : List Byte) : BitVec 64 × Int := uvarintLoop 0 0 buf

/-- `Varint`: `x := int64(ux >> 1); if ux&1 != 0 { x = ^x }`. -/
def varint (buf : List Byte) : Int64 × Int :=
  let (ux, n) := uvarint buf
  let x := ux >>> 1
  let x := if ux &&& 1 != 0 then ~~~x else x
  (Int64.ofBitVec x, n)

/-! ### `unicode/utf8` (Go 1.13 src/unicode/utf8/utf8.go)

Runes are numbers.  The bit masks of the Go source are written as `%` and the or-ing of
disjoint bit fields as `+`. -/

/-- U+FFFD -/
def runeError : Nat := 0xFFFD

/-- `acceptRanges[first[p0] >> 4]` and the sequence length `first[p0] & 7`, for a
multi-byte lead byte; `none` for the entries `xx` (invalid). -/
def utf8Lead (p0 : Nat) : Option (Nat × Nat × Nat) :=
  if 0xC2 ≤ p0 ∧ p0 ≤ 0xDF then some (2, 0x80, 0xBF)
  else if p0 = 0xE0 then some (3, 0xA0, 0xBF)
  else if p0 = 0xED then some (3, 0x80, 0x9F)
  else if 0xE1 ≤ p0 ∧ p0 ≤ 0xEF then some (3, 0x80, 0xBF)
  else if p0 = 0xF0 then some (4, 0x90, 0xBF)
  else if p0 = 0xF4 then some (4, 0x80, 0x8F)
  else if 0xF1 ≤ p0 ∧ p0 ≤ 0xF3 then some (4, 0x80, 0xBF)
  else none

/-- `utf8.DecodeRune`: rune and width; `(RuneError, 0)` on empty input, `(RuneError, 1)`
on an invalid sequence.  A `range` loop over a string yields the same runes. -/
def decodeRune : List Byte → Nat × Nat
  | [] => (runeError, 0)
  | p0 :: rest =>
    if p0.toNat < 0x80 then (p0.toNat, 1)
    else match utf8Lead p0.toNat with
      | none => (runeError, 1)
      | some (sz, lo, hi) =>
        if rest.length + 1 < sz then (runeError, 1)
        else match rest with
          | [] => (runeError, 1)
          | b1 :: rest2 =>
            if b1.toNat < lo ∨ hi < b1.toNat then (runeError, 1)
            else if sz = 2 then (p0.toNat % 32 * 64 + b1.toNat % 64, 2)
            else match rest2 with
              | [] => (runeError, 1)
              | b2 :: rest3 =>
                if b2.toNat < 0x80 ∨ 0xBF < b2.toNat then (runeError, 1)
                else if sz = 3 then
                  (p0.toNat % 16 * 4096 + b1.toNat % 64 * 64 + b2.toNat % 64, 3)
                else match rest3 with
                  | [] => (runeError, 1)
                  | b3 :: _ =>
                    if b3.toNat < 0x80 ∨ 0xBF < b3.toNat then (runeError, 1)
                    else (p0.toNat % 8 * 262144 + b1.toNat % 64 * 4096
                          + b2.toNat % 64 * 64 + b3.toNat % 64, 4)

/-- `utf8.EncodeRune`; also the encoding used by the conversion `string([]rune)`. -/
def encodeRune (r : Nat) : List Byte :=
  if r ≤ 0x7F then [BitVec.ofNat 8 r]
  else if r ≤ 0x7FF then
    [BitVec.ofNat 8 (0xC0 + r / 64), BitVec.ofNat 8 (0x80 + r % 64)]
  else
    let r := if r > 0x10FFFF ∨ (0xD800 ≤ r ∧ r ≤ 0xDFFF) then runeError else r
    if r ≤ 0xFFFF then
      [BitVec.ofNat 8 (0xE0 + r / 4096), BitVec.ofNat 8 (0x80 + r / 64 % 64),
       BitVec.ofNat 8 (0x80 + r % 64)]
    else
      [BitVec.ofNat 8 (0xF0 + r / 262144), BitVec.ofNat 8 (0x80 + r / 4096 % 64),
       BitVec.ofNat 8 (0x80 + r / 64 % 64), BitVec.ofNat 8 (0x80 + r % 64)]

/-- The runes of a byte string, as visited by `for _, r := range s` or by a
`DecodeRune` loop.  `fuel` bounds the number of iterations; every iteration consumes at
least one byte, so `s.length` is enough (`runes`). -/
def runesAux : Nat → List Byte → List Nat
  | 0, _ => []
  | _ + 1, [] => []
  | fuel + 1, b :: bs =>
    let (r, size) := decodeRune (b :: bs)
    r :: runesAux fuel ((b :: bs).drop size)

def runes (s : List Byte) : List Nat := runesAux s.length s

end Kafka
