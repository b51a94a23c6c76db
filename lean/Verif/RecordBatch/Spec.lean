import Verif.RecordBatch.Model
import Verif.Message.VarDec
/-!
Layout of record batches on the wire and a reader for it, independent of the model of the code.
-/
namespace Kafka.Record

open Kafka

/-- What one header pair puts on the wire: strings that are not UTF-8 are written longer than
announced. -/
def pairBytes (kv : GoString × GoString) : List Byte :=
  (Wire.varInt (Int64.ofNat kv.1.length) ++ sanitize kv.1) ++ (Wire.varInt (Int64.ofNat kv.2.length) ++ sanitize kv.2)

/-- The bytes of one record. -/
def recordBytes (pairs : List (GoString × GoString)) (m : Message) (firstTimestamp : Int64) : List Byte :=
  Wire.varInt 0 ++ (Wire.int8 0 ++ (Wire.varInt (m.unix - firstTimestamp) ++ (Wire.varInt 0 ++
    (Wire.varBytes m.key ++ (Wire.varBytes m.value ++ pairs.flatMap pairBytes)))))

/-- The pairs visited for `m` in call `call`. -/
def pairsOf (call : Nat) (m : Message) : List (GoString × GoString) :=
  match m.header with
  | none => []
  | some h => h.visits call

/-- The bytes of the records from call `call` on. -/
def recordsBytes (first : Int64) : Nat → List Message → List Byte
  | _, [] => []
  | call, m :: ms => recordBytes (pairsOf call m) m first ++ recordsBytes first (call + 1) ms

/-- The fixed part. -/
def fixedBytes (r : Batch) : List Byte :=
  Wire.int64 r.baseOffset ++ (Wire.int32 r.batchLength ++ (Wire.int32 r.partitionLeaderEpoch ++
    (Wire.int8 2 ++ (Wire.int32 r.crc ++ (Wire.int16 r.attributes ++ (Wire.int32 r.lastOffsetDelta ++
    (Wire.int64 r.firstTimestamp ++ (Wire.int64 r.maxTimestamp ++ (Wire.int64 r.producerId ++
    (Wire.int16 r.producerEpoch ++ Wire.int32 r.baseSequence))))))))))

/-- One header pair. -/
def readPair : Dec (GoString × GoString) := do
  let k ← Dec.varString
  let v ← Dec.varString
  pure (k, v)

/-- A record with a known number of header pairs. -/
structure Read where
  length : Int64
  attributes : Int8
  timestampDelta : Int64
  offsetDelta : Int64
  key : Slice Byte
  value : Slice Byte
  headers : List (GoString × GoString)

def readRecord (pairs : Nat) : Dec Read := do
  let length ← Dec.varInt
  let attributes ← Dec.int8
  let timestampDelta ← Dec.varInt
  let offsetDelta ← Dec.varInt
  let key ← Dec.varBytes
  let value ← Dec.varBytes
  let headers ← Dec.loop readPair pairs
  pure ⟨length, attributes, timestampDelta, offsetDelta, key, value, headers⟩

/-- Records with known numbers of header pairs. -/
def readRecords : List Nat → Dec (List Read)
  | [] => pure []
  | n :: ns => do
    let r ← readRecord n
    let rs ← readRecords ns
    pure (r :: rs)

/-- What reading a record gives. -/
def readOf (pairs : List (GoString × GoString)) (m : Message) (first : Int64) : Read :=
  { length := 0, attributes := 0, timestampDelta := m.unix - first, offsetDelta := 0,
    key := m.key.nonNil, value := m.value.nonNil, headers := pairs }

end Kafka.Record
