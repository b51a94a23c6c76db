import Verif.Message.Encoder
import Verif.Message.Decoder
import Verif.Message.Sizeof
import Verif.Ring.Buffer
/-!
The tests of the repository, run on the model.  They prove nothing about all inputs; they are evidence that the model
computes what the code does, for the cases that the authors of the code checked.
-/
namespace Kafka.Tests

/-- `[]byte(s)` -/
def str (s : String) : List Byte := s.toUTF8.toList.map (·.toBitVec)

/-- A `bytes.Buffer`: takes everything. -/
def encoder : Encoder := newEncoder fun _ => none

/-- message/decoder_test.go:27-29 `makeTestDecoder` -/
def decoder (data : List Byte) : Decoder := newDecoder data data.length

/-- Writes, checks that `Flush` reports no error, reads back; the value, unless there is an error or a panic. -/
def back {α : Type} (put : Encoder → Encoder) (get : Dec α) : Option α :=
  let e := put encoder
  if (e.flush none).isSome then none else
  match get (decoder e.out) with
  | .ok a _ => some a
  | _ => none

/-! ## message/decoder_test.go -/

/-- message/decoder_test.go:31-67 `TestDecoder_PutBool` -/
example : ∀ want ∈ [true, false], back (·.putBool want) Dec.bool = some want := by decide +kernel

/-- message/decoder_test.go:69-108 `TestDecoder_PutBytes`; the test compares with `bytes.Equal`, for which nil is empty -/
example : ∀ want ∈ [none, some [], some (str "hello")],
    (back (·.putBytes want) Dec.bytes).map Slice.elems = some (Slice.elems want) := by decide +kernel

/-- message/decoder_test.go:110-146 `TestDecoder_PutInt8` -/
example : ∀ want ∈ [(123 : Int8), -123], back (·.putInt8 want) Dec.int8 = some want := by decide +kernel

/-- message/decoder_test.go:148-184 `TestDecoder_PutInt16` -/
example : ∀ want ∈ [(123 : Int16), -123], back (·.putInt16 want) Dec.int16 = some want := by decide +kernel

/-- message/decoder_test.go:186-222 `TestDecoder_PutInt32` -/
example : ∀ want ∈ [(123 : Int32), -123], back (·.putInt32 want) Dec.int32 = some want := by decide +kernel

/-- message/decoder_test.go:224-263 `TestDecoder_PutInt32Array` -/
example : ∀ want ∈ [none, some [1, 2, 3], some [-1, -2, -3]],
    back (·.putInt32Array want) Dec.int32Array = some want := by decide +kernel

/-- message/decoder_test.go:265-301 `TestDecoder_PutInt64` -/
example : ∀ want ∈ [(123 : Int64), -123], back (·.putInt64 want) Dec.int64 = some want := by decide +kernel

/-- message/decoder_test.go:303-342 `TestDecoder_PutInt64Array` -/
example : ∀ want ∈ [none, some [1, 2, 3], some [-1, -2, -3]],
    back (·.putInt64Array want) Dec.int64Array = some want := by decide +kernel

/-- message/decoder_test.go:344-380 `TestDecoder_PutString` -/
example : ∀ want ∈ [str "", str "abc"], back (·.putString want) Dec.string = some want := by decide +kernel

/-- message/decoder_test.go:382-440 `TestDecoder_PutNullableString`; the case called nil is not nil -/
example : ∀ want ∈ [some (str ""), some (str "some")],
    back (·.putNullableString want) Dec.nullableString = some want := by decide +kernel

/-- message/decoder_test.go:442-481 `TestDecoder_PutStringArray` -/
example : ∀ want ∈ [none, some [], some [str "a", str "b", str "c"]],
    back (·.putStringArray want) Dec.stringArray = some want := by decide +kernel

/-- message/decoder_test.go:483-519 `TestDecoder_PutVarBytes` -/
example : ∀ want ∈ [some [], some (str "hello world")],
    (back (·.putVarBytes want) Dec.varBytes).map Slice.elems = some (Slice.elems want) := by decide +kernel

/-- message/decoder_test.go:521-566 `TestDecoder_PutVarInt` -/
example : ∀ want ∈ [(0 : Int64), 1, -1, Int64.minValue, Int64.maxValue],
    back (·.putVarInt want) Dec.varInt = some want := by decide +kernel

/-- message/decoder_test.go:568-607 `TestDecoder_PutVarString` -/
example : ∀ want ∈ [str "", str "hello world", str "你好"],
    back (·.putVarString want) Dec.varString = some want := by decide +kernel

/-- message/decoder_test.go:634-639 `TestStringLength` -/
example : (str "你好").length = 6 := by decide +kernel

/-- Whether a method reports too little data. -/
def short {α : Type} (get : Dec α) : Bool :=
  match get (decoder []) with
  | .err e _ => isInsufficientDataError e
  | _ => false

/-- message/decoder_test.go:653-734 `TestDecoder_remain` -/
example : (short Dec.bool && short Dec.bytes && short (Dec.discard 100) && short Dec.int8 &&
    short Dec.int16 && short Dec.int32 && short Dec.int32Array && short Dec.int64 &&
    short Dec.int64Array && short Dec.nullableString && short Dec.string && short Dec.stringArray &&
    short Dec.varBytes && short Dec.varInt && short Dec.varString) = true := by decide +kernel

/-- message/decoder_test.go:736-750 `TestDecoder_Discard` -/
example : (match Dec.discard 10 (newDecoder (List.replicate 100 0) 100) with
    | .ok _ d => some (d.offset, d.length) | _ => none) = some (10, 100) := by decide +kernel

/-- message/decoder_test.go:752-771 `TestDecoder_Reset` -/
example : (Dec.reset ⟨[], 20, 10⟩ 5).offset = 0 ∧ (Dec.reset ⟨[], 20, 10⟩ 5).length = 5 := by decide +kernel

/-! ## message/encoder_test.go -/

/-- message/encoder_test.go:25-83 `TestEncoder_err`: an encoder that has failed writes nothing and keeps its error. -/
def afterError : Encoder := (((((((((((((({ encoder with err := some ⟨7⟩ } : Encoder).putBool false |>.putBytes none) |>.putInt8 0
  ) |>.putInt16 0) |>.putInt32 0) |>.putInt32Array none) |>.putInt64 0) |>.putInt64Array none) |>.putNullableString none
  ) |>.putRecordHeader (str "hello") (str "world")) |>.putString []) |>.putStringArray none
  ) |>.putVarBytes (some (str "hello world"))) |>.putVarInt 123) |>.putVarString (str "hello world")

example : afterError.out.length = 0 ∧ afterError.flush none = some ⟨7⟩ := by decide +kernel

/-! ## message/sizeof/sizeof_test.go -/

/-- `TestBytes` -/
example : Sizeof.bytes none = Sizeof.arrayLength ∧ Sizeof.bytes (some (str "hello world")) = Sizeof.arrayLength + 11 := by decide +kernel

/-- `TestStringArray` -/
example : Sizeof.stringArray none = 4 ∧ Sizeof.stringArray (some [str "hello", str "world"]) = 18 := by decide +kernel

/-- `TestInt32Array` -/
example : Sizeof.int32Array none = 4 ∧ Sizeof.int32Array (some [1, 2, 3]) = 16 := by decide +kernel

/-- `TestInt64Array` -/
example : Sizeof.int64Array none = 4 ∧ Sizeof.int64Array (some [1, 2, 3]) = 28 := by decide +kernel

/-- `TestVarInt` -/
example : Sizeof.varInt 0 = 1 ∧ Sizeof.varInt 32767 = 3 ∧ Sizeof.varInt Int64.maxValue = 10 := by decide +kernel

/-- `TestVarBytes` -/
example : Sizeof.varBytes none = 1 ∧ Sizeof.varBytes (some []) = 1 ∧ Sizeof.varBytes (some (str "hello world")) = 12 := by decide +kernel

/-- `TestVarString` -/
example : Sizeof.varString (str "") = 1 ∧ Sizeof.varString (str "hello world") = 12 ∧ Sizeof.varString (str "你好") = 7 := by
  decide +kernel

/-! ## ring/buffer_test.go -/

/-- ring/buffer_test.go:28-39 `TestBuffer_WriteN`: `WriteN` alone, run until it returns. -/
example : ((Ring.run 15 (.callW (str "hello world") 11 :: List.replicate 15 .w) Ring.init).map fun s =>
    (s.wpc, (List.range 11).map s.mem)) = some (.idle, str "hello world") := by decide +kernel

/-- ring/buffer_test.go:170-181 `BenchmarkRingBuffer` at a smaller size, for the number of rounds after which the positions
are where they were: `WriteN` and `ReadN` in turn by one goroutine always return. -/
example : ((Ring.run 6 ((List.replicate 2 (.callW [1, 2, 3] 3 :: List.replicate 7 .w ++ .callR [0, 0, 0] 3 ::
    List.replicate 7 .r)).flatten) Ring.init).map fun s => (s.wpc, s.rpc, s.rdst)) = some (.idle, .idle, [1, 2, 3]) := by decide +kernel

end Kafka.Tests
