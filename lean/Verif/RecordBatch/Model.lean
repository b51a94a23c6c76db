import Verif.Message.Encoder
import Verif.Message.Sizeof
/-!
Model of `gen.record_batch.go`.
-/
namespace Kafka.Record

open Kafka

/-- gen.record_batch.go:29-32: a value of the interface type `Header`, whatever its
implementation.  `visits k` are the pairs the `k`-th call of `Range` passes to its argument, in
order: they may differ from call to call (map iteration order does). -/
structure Header where
  visits : Nat → List (GoString × GoString)
  get : GoString → GoString × Bool

/-- gen.record_batch.go:51-59 `Message`; of `Timestamp` only `Timestamp.Unix()` is used, which is
kept here.  `Header` is `none` for the nil interface. -/
structure Message where
  topic : GoString
  partition : Int32
  offset : Int64
  key : Slice Byte
  value : Slice Byte
  unix : Int64
  header : Option Header

/-- gen.record_batch.go:61-64 `Message.Size` -/
def Message.size (_m : Message) (_version : Int16) : Int32 := 0

/-- gen.record_batch.go:68-82 `RecordBatch` -/
structure Batch where
  baseOffset : Int64
  batchLength : Int32
  partitionLeaderEpoch : Int32
  magic : Int8
  crc : Int32
  attributes : Int16
  lastOffsetDelta : Int32
  firstTimestamp : Int64
  maxTimestamp : Int64
  producerId : Int64
  producerEpoch : Int16
  baseSequence : Int32
  records : Slice Message

/-- gen.record_batch.go:26 `magic` -/
def magic : Int8 := 2

/-- gen.record_batch.go:136-152 `sizeofMessage`; `call` numbers the call of `Range` it makes. -/
def sizeofMessage (call : Nat) (m : Message) (version : Int16) (baseOffset firstTimestamp : Int64) : Int32 :=
  let sz : Int32 := 0
  let sz := sz + Sizeof.int8
  let sz := sz + Sizeof.varInt (m.unix - firstTimestamp)
  let sz := sz + Sizeof.varInt (m.offset - baseOffset)
  let sz := sz + Sizeof.varInt (Int64.ofNat m.key.len)
  let sz := sz + Sizeof.bytes m.key
  let sz := sz + Sizeof.varInt (Int64.ofNat m.value.len)
  let sz := sz + Sizeof.bytes m.value
  match m.header with
  | none => sz
  | some h =>
    if version ≥ 2 then
      (h.visits call).foldl (fun sz kv => sz + Sizeof.varString kv.1 + Sizeof.varString kv.2) sz
    else sz

/-- gen.record_batch.go:100-102: the loop over the records; `call` numbers the first call of
`Range`. -/
def sizeofMessages (call : Nat) (version : Int16) (baseOffset firstTimestamp : Int64) :
    List Message → Int32 → Int32
  | [], sz => sz
  | m :: ms, sz =>
    sizeofMessages (call + 1) version baseOffset firstTimestamp ms
      (sz + sizeofMessage call m version baseOffset firstTimestamp)

/-- gen.record_batch.go:84-104 `RecordBatch.Size` -/
def Batch.size (call : Nat) (r : Batch) (version : Int16) : Int32 :=
  let sz : Int32 := 0
  let sz := sz + Sizeof.int64
  let sz := sz + Sizeof.int32
  let sz := sz + Sizeof.int32
  let sz := sz + Sizeof.int8
  let sz := sz + Sizeof.int32
  let sz := sz + Sizeof.int16
  let sz := sz + Sizeof.int32
  let sz := sz + Sizeof.int64
  let sz := sz + Sizeof.int64
  let sz := sz + Sizeof.int64
  let sz := sz + Sizeof.int16
  let sz := sz + Sizeof.int32
  sizeofMessages call version r.baseOffset r.firstTimestamp r.records.elems sz

/-- gen.record_batch.go:126-134 `encodeMessage`; `none` is the panic of a method call on a nil
interface. -/
def encodeMessage (call : Nat) (m : Message) (version : Int16) (firstTimestamp : Int64) (e : Encoder) :
    Option Encoder :=
  let e := e.putVarInt (m.size version).toInt64
  let e := e.putInt8 0
  let e := e.putVarInt (m.unix - firstTimestamp)
  let e := e.putVarInt 0
  let e := e.putVarBytes m.key
  let e := e.putVarBytes m.value
  m.header.map fun h => (h.visits call).foldl (fun e kv => e.putRecordHeader kv.1 kv.2) e

/-- gen.record_batch.go:120-122: the loop over the records -/
def encodeMessages (call : Nat) (version : Int16) (firstTimestamp : Int64) :
    List Message → Encoder → Option Encoder
  | [], e => some e
  | m :: ms, e => 
    (encodeMessage call m version firstTimestamp e).bind (encodeMessages (call + 1) version firstTimestamp ms)

/-- gen.record_batch.go:106-123 `RecordBatch.Encode` -/
def Batch.encode (call : Nat) (r : Batch) (version : Int16) (e : Encoder) : Option Encoder :=
  let e := e.putInt64 r.baseOffset
  let e := e.putInt32 r.batchLength
  let e := e.putInt32 r.partitionLeaderEpoch
  let e := e.putInt8 Record.magic
  let e := e.putInt32 r.crc
  let e := e.putInt16 r.attributes
  let e := e.putInt32 r.lastOffsetDelta
  let e := e.putInt64 r.firstTimestamp
  let e := e.putInt64 r.maxTimestamp
  let e := e.putInt64 r.producerId
  let e := e.putInt16 r.producerEpoch
  let e := e.putInt32 r.baseSequence
  encodeMessages call version r.firstTimestamp r.records.elems e

/-! ### MapHeader -/

/-- A Go `map[string]string`: its entries, one per key, in no particular order (`none`: the nil
map). -/
structure MapHeader where
  entries : List (GoString × GoString)

/-- `m[k] = v` -/
def MapHeader.set (m : MapHeader) (k v : GoString) : MapHeader :=
  ⟨m.entries.filter (fun e => e.1 ≠ k) ++ [(k, v)]⟩

/-- `delete(m, k)` -/
def MapHeader.delete (m : MapHeader) (k : GoString) : MapHeader :=
  ⟨m.entries.filter (fun e => e.1 ≠ k)⟩

/-- gen.record_batch.go:38-41 `Get`: `v, ok := m[key]` -/
def MapHeader.get (m : MapHeader) (k : GoString) : GoString × Bool :=
  match m.entries.find? (fun e => e.1 = k) with
  | some e => (e.2, true)
  | none => ([], false)

/-- gen.record_batch.go:44-48 `Range`: `for k, v := range m` calls `fn` once per entry, in an order
the language leaves open. -/
def MapHeader.Ranges (m : MapHeader) (calls : List (GoString × GoString)) : Prop :=
  calls.Perm m.entries

end Kafka.Record
