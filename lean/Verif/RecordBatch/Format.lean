import Verif.Message.Wire
/-!
The format of record batches (message format 2), from https://kafka.apache.org/documentation/#recordbatch, to
which gen.record_batch.go:26,66,125 refer: what is written for a batch, and how bytes are read as one.  Nothing here
refers to the code.
-/
namespace Kafka.Record.Format

open Kafka

/-- A record: attributes, deltas, key and value (`none`: null), headers. -/
structure Rec where
  attributes : Int8
  timestampDelta : Int
  offsetDelta : Int
  key : Option (List Byte)
  value : Option (List Byte)
  headers : List (List Byte × Option (List Byte))
deriving DecidableEq

/-- A batch, without the three fields that follow from the others: batchLength, magic and crc. -/
structure Batch where
  baseOffset : Int64
  partitionLeaderEpoch : Int32
  attributes : Int16
  lastOffsetDelta : Int32
  baseTimestamp : Int64
  maxTimestamp : Int64
  producerId : Int64
  producerEpoch : Int16
  baseSequence : Int32
  records : List Rec
deriving DecidableEq

/-- varint, varlong -/
def vint (i : Int) : List Byte := Wire.base128 (Wire.zigzag i)

/-- A length as varint, then the bytes. -/
def counted (bs : List Byte) : List Byte := vint bs.length ++ bs

/-- The same with null, whose length is -1. -/
def nullable : Option (List Byte) → List Byte
  | none => vint (-1)
  | some bs => counted bs

/-- headerKeyLength, headerKey, headerValueLength, Value -/
def headerBytes (h : List Byte × Option (List Byte)) : List Byte := counted h.1 ++ nullable h.2

/-- What follows the length of a record. -/
def Rec.body (r : Rec) : List Byte :=
  Wire.int8 r.attributes ++ (vint r.timestampDelta ++ (vint r.offsetDelta ++ (nullable r.key ++ (nullable r.value ++
    (vint r.headers.length ++ r.headers.flatMap headerBytes)))))

/-- A record. -/
def Rec.bytes (r : Rec) : List Byte := counted r.body

/-- One byte more: the remainder of division by the polynomial of CRC-32C (Castagnoli), bits reversed. -/
def crcByte (c : BitVec 32) (b : Byte) : BitVec 32 :=
  (List.range 8).foldl (fun c _ => if c.getLsbD 0 then (c >>> 1) ^^^ 0x82F63B78#32 else c >>> 1) (c ^^^ b.setWidth 32)

/-- CRC-32C -/
def crc32c (bs : List Byte) : BitVec 32 := ~~~bs.foldl crcByte 0xFFFFFFFF#32

/-- The check value of CRC-32C: that of "123456789". -/
example : crc32c [0x31, 0x32, 0x33, 0x34, 0x35, 0x36, 0x37, 0x38, 0x39] = 0xE3069283#32 := by decide +kernel

/-- From attributes to baseSequence. -/
def Batch.middle (b : Batch) : List Byte :=
  Wire.int16 b.attributes ++ (Wire.int32 b.lastOffsetDelta ++ (Wire.int64 b.baseTimestamp ++
    (Wire.int64 b.maxTimestamp ++ (Wire.int64 b.producerId ++ (Wire.int16 b.producerEpoch ++
    Wire.int32 b.baseSequence)))))

/-- What crc covers: from attributes to the end. -/
def Batch.covered (b : Batch) : List Byte :=
  b.middle ++ (Wire.int32 (Int32.ofNat b.records.length) ++ b.records.flatMap Rec.bytes)

/-- crc: of what it covers. -/
def Batch.crc (b : Batch) : Int32 := ⟨⟨crc32c b.covered⟩⟩

/-- batchLength: the number of bytes that follow it. -/
def Batch.batchLength (b : Batch) : Int32 := Int32.ofNat (4 + 1 + 4 + b.covered.length)

/-- A batch. -/
def Batch.bytes (b : Batch) : List Byte :=
  Wire.int64 b.baseOffset ++ (Wire.int32 b.batchLength ++ (Wire.int32 b.partitionLeaderEpoch ++
    (Wire.int8 2 ++ (Wire.int32 b.crc ++ b.covered))))

/-- A batch whose counts fit into their fields. -/
structure Batch.Valid (b : Batch) : Prop where
  count : b.records.length < 2 ^ 31
  length : 4 + 1 + 4 + b.covered.length < 2 ^ 31

/-! ### Reading -/

/-- A reader: takes something off the front of the bytes, or there is no such thing. -/
abbrev R := StateT (List Byte) Option

/-- `n` bytes -/
def takes (n : Nat) : R (List Byte) := fun bs => if bs.length < n then none else some (bs.take n, bs.drop n)

/-- It must be so. -/
def demand (c : Prop) [Decidable c] : R Unit := if c then pure () else failure

/-- A big-endian number of `w` bytes in two's complement. -/
def fixed (w : Nat) : R Int := do
  let bs ← takes w
  let u : Nat := bs.foldl (fun n b => 256 * n + b.toNat) 0
  pure (if 2 * u < 256 ^ w then u else u - (256 ^ w : Nat))

/-- Seven bits a byte, the lowest first; the last byte is below 128. -/
def base128 : R Nat
  | [] => none
  | b :: bs => if b.toNat < 128 then some (b.toNat, bs) else (base128 bs).map fun (n, bs) => (b.toNat - 128 + 128 * n, bs)

/-- varint, varlong -/
def varint : R Int := do
  let n ← base128
  pure (if n % 2 = 0 then (n / 2 : Nat) else -(((n + 1) / 2 : Nat) : Int))

/-- A length that may not be negative, and so many bytes. -/
def chunk : R (List Byte) := do
  let n ← varint
  demand (0 ≤ n)
  takes n.toNat

/-- The same with null. -/
def nullableChunk : R (Option (List Byte)) := do
  let n ← varint
  if n = -1 then pure none else do
    demand (0 ≤ n)
    let bs ← takes n.toNat
    pure (some bs)

/-- `n` times -/
def times {α : Type} (p : R α) : Nat → R (List α)
  | 0 => pure []
  | n + 1 => do
    let x ← p
    let xs ← times p n
    pure (x :: xs)

def header : R (List Byte × Option (List Byte)) := do
  let k ← chunk
  let v ← nullableChunk
  pure (k, v)

def recBody : R Rec := do
  let a ← fixed 1
  let td ← varint
  let od ← varint
  let k ← nullableChunk
  let v ← nullableChunk
  let n ← varint
  demand (0 ≤ n)
  let hs ← times header n.toNat
  pure ⟨Int8.ofInt a, td, od, k, v, hs⟩

/-- A record has the length it says. -/
def record : R Rec := do
  let bs ← chunk
  match recBody bs with
  | some (r, []) => pure r
  | _ => failure

/-- All that crc covers. -/
def covered (baseOffset : Int) (epoch : Int) : R Batch := do
  let attributes ← fixed 2
  let lod ← fixed 4
  let bt ← fixed 8
  let mt ← fixed 8
  let pid ← fixed 8
  let pe ← fixed 2
  let bseq ← fixed 4
  let count ← fixed 4
  demand (0 ≤ count)
  let records ← times record count.toNat
  pure ⟨Int64.ofInt baseOffset, Int32.ofInt epoch, Int16.ofInt attributes, Int32.ofInt lod, Int64.ofInt bt,
    Int64.ofInt mt, Int64.ofInt pid, Int16.ofInt pe, Int32.ofInt bseq, records⟩

/-- A batch: batchLength is the number of bytes after it, magic is 2, the checksum is right, and nothing is left. -/
def batch : R Batch := do
  let baseOffset ← fixed 8
  let length ← fixed 4
  let rest ← get
  demand (length = rest.length)
  let epoch ← fixed 4
  let m ← fixed 1
  demand (m = 2)
  let crc ← fixed 4
  let bs ← get
  demand (crc = (crc32c bs).toInt)
  covered baseOffset epoch

/-- Bytes read as a batch, and nothing else. -/
def read (bs : List Byte) : Option Batch :=
  match batch bs with
  | some (b, []) => some b
  | _ => none

end Kafka.Record.Format
