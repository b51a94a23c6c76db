import Verif.Message.VarShort
import Verif.Broker.Config
/-!
Properties C01 to C10: the primitive encoder and decoder.  (C10 to C12 go on in Verif/Props/Bytes.lean.)

Vocabulary: `Reliable e` is an encoder without error whose writer accepts everything;
`d.Valid` is a decoder whose position is within its declared length and whose declared
length is within the buffer; `d.rest` are the bytes from the position to the declared
length; `d.skip n` is the decoder `n` bytes further on.  `Wire.*` is the specification of
the protocol's formats.
-/
namespace Kafka.Props

open Kafka

/-- `put` appends `bs` to whatever has been written before, without an error. -/
def Appends (put : Encoder → Encoder) (bs : List Byte) : Prop :=
  ∀ e, Reliable e → (put e).err = none ∧ (put e).out = e.out ++ bs

/-- Wherever the bytes `bs` are found, and whatever follows them, `get` returns `a` without
error and moves on by exactly `bs`. -/
def ReadsBack {α : Type} (get : Dec α) (bs : List Byte) (a : α) : Prop :=
  ∀ d, d.Valid → ∀ tail, d.rest = bs ++ tail → get d = .ok a (d.skip bs.length)

/-- `put` writes the bytes `bs` and `get` reads them back as `a`. -/
structure RoundTrip {α : Type} (put : Encoder → Encoder) (get : Dec α) (bs : List Byte) (a : α) :
    Prop where
  writes : Appends put bs
  reads : ReadsBack get bs a

theorem roundTrip_of {α : Type} {put : Encoder → Encoder} {get : Dec α} {bs : List Byte} {a : α}
    (h1 : Emits put bs) (h2 : Exact get bs a) : RoundTrip put get bs a :=
  ⟨fun _ he => h1.reliable he, h2⟩

theorem roundTrip_pours {α : Type} {put : Encoder → Encoder} {get : Dec α} {bs : List Byte} {a : α}
    (h1 : Pours put bs) (h2 : Exact get bs a) : RoundTrip put get bs a :=
  ⟨fun e he => ⟨(h1 e he).1.1, (h1 e he).2⟩, h2⟩

/-- A decoder in the middle of a larger buffer, for the examples. -/
def sampleDecoder (bs : List Byte) : Decoder :=
  { raw := [0xAA#8, 0xBB#8] ++ bs ++ [0xCC#8, 0xDD#8], length := bs.length + 3, offset := 2 }

theorem sampleDecoder_valid (bs : List Byte) (h : bs.length < 2 ^ 61) : (sampleDecoder bs).Valid := by
  constructor <;> simp [sampleDecoder] <;> omega

theorem sampleDecoder_rest (bs : List Byte) : (sampleDecoder bs).rest = bs ++ [0xCC] := by
  have h1 : ((bs.length : Int) + 3).toNat = [0xAA#8, 0xBB#8].length + (bs.length + 1) := by simp; omega
  simp only [sampleDecoder, Decoder.rest, List.append_assoc, h1]
  rw [List.take_length_add_append, List.take_length_add_append]
  rfl

/-- The empty, reliable writer meets the hypothesis of `Appends`. -/
example : Reliable (newEncoder fun _ => none) := ⟨rfl, fun _ => rfl⟩

/-! ### C01 -/

theorem C01_bool (b : Bool) : RoundTrip (·.putBool b) Dec.bool [if b then 1#8 else 0#8] b :=
  roundTrip_of (emits_bool b) (reads_bool b).1
theorem C01_int8 (i : Int8) : RoundTrip (·.putInt8 i) Dec.int8 (Wire.bigEndian 1 i.toInt) i :=
  roundTrip_of (emits_int8 i) (reads_int8 i).1
theorem C01_int16 (i : Int16) : RoundTrip (·.putInt16 i) Dec.int16 (Wire.bigEndian 2 i.toInt) i :=
  roundTrip_of (emits_int16 i) (reads_int16 i).1
theorem C01_int32 (i : Int32) : RoundTrip (·.putInt32 i) Dec.int32 (Wire.bigEndian 4 i.toInt) i :=
  roundTrip_of (emits_int32 i) (reads_int32 i).1
theorem C01_int64 (i : Int64) : RoundTrip (·.putInt64 i) Dec.int64 (Wire.bigEndian 8 i.toInt) i :=
  roundTrip_of (emits_int64 i) (reads_int64 i).1

/-- A buffer as in the hypotheses, with bytes before and after. -/
example : Dec.int32 (sampleDecoder [0xFF, 0xFF, 0xFF, 0xFE]) =
    .ok (-2) ((sampleDecoder [0xFF, 0xFF, 0xFF, 0xFE]).skip 4) :=
  (C01_int32 (-2)).reads _ (sampleDecoder_valid _ (by decide)) [0xCC] (sampleDecoder_rest _)

/-! ### C02 -/

/-- Strings of at most 32767 bytes round-trip.  Longer ones do not: `C02_fails`. -/
theorem C02_string_partial (s : GoString) (h : s.length < 2 ^ 15) :
    RoundTrip (·.putString s) Dec.string (Wire.string s) s :=
  roundTrip_of (emits_string s) (reads_string h).1

theorem string_long {s : GoString} (h : 2 ^ 15 ≤ s.length) (d : Decoder) (hd : d.Valid)
    (hr : d.rest = Wire.string s) : ∀ d', Dec.string d ≠ .ok s d' := by
  intro d' hc
  have h16 := (reads_int16 (Int16.ofNat s.length)).1 d hd s hr
  unfold Dec.string at hc
  rw [bind_ok h16] at hc
  split at hc
  · injection hc with h1 _
    rw [← h1] at h
    simp at h
  · have hv : (d.skip (Wire.int16 (Int16.ofNat s.length)).length).Valid :=
      Decoder.skip_valid hd (by rw [hr]; simp [Wire.string])
    have hb := int16_bounds (Int16.ofNat s.length)
    rw [takeBytes_spec (by omega) _ hv] at hc
    unfold takeOut at hc
    split at hc
    · simp [POut.lift] at hc
    · split at hc
      · simp [POut.lift] at hc
      · simp only [POut.lift, Res.ok.injEq] at hc
        have := congrArg List.length hc.1
        rw [List.length_take] at this
        omega

/-- No string of 32768 bytes or more is read back, wherever its encoding is found. -/
theorem C02_fails (s : GoString) (h : 2 ^ 15 ≤ s.length) (d : Decoder) (hd : d.Valid)
    (hr : d.rest = bytesOf (·.putString s)) : ∀ d', Dec.string d ≠ .ok s d' :=
  string_long h d hd (by rw [hr, (emits_string s).bytesOf])

/-- Such strings, and decoders positioned at their encoding, exist. -/
example : ∃ (s : GoString) (d : Decoder), 2 ^ 15 ≤ s.length ∧ d.Valid ∧
    d.rest = bytesOf (·.putString s) := by
  refine ⟨List.replicate 40000 0x61, newDecoder _ _, by rw [List.length_replicate]; omega,
    newDecoder_valid ?_, newDecoder_rest _⟩
  rw [(emits_string _).bytesOf, Wire.string, List.length_append, List.length_replicate]
  have : (Wire.int16 (Int16.ofNat 40000)).length = 2 := rfl
  omega

example : RoundTrip (·.putString (goString "topic")) Dec.string
    ([0, 5] ++ goString "topic") (goString "topic") := C02_string_partial _ (by decide)

/-! ### C03 -/

/-- A non-nil `*string` of at most 32767 bytes round-trips; nil does not: `C03_fails`. -/
theorem C03_nullableString_partial (s : GoString) (h : s.length < 2 ^ 15) :
    RoundTrip (·.putNullableString (some s)) Dec.nullableString (Wire.nullableString (some s))
      (some s) :=
  roundTrip_of (emits_nullableString _) (reads_nullableString h).1

/-- A nil `*string` is written as the null marker but always read back as a non-nil
pointer, to the empty string. -/
theorem C03_fails (d : Decoder) (hd : d.Valid) (tail : List Byte)
    (hr : d.rest = bytesOf (·.putNullableString none) ++ tail) :
    Dec.nullableString d = .ok (some []) (d.skip 2) := by
  rw [(emits_nullableString none).bytesOf] at hr
  unfold Dec.nullableString Dec.string
  have : Dec.string d = .ok [] (d.skip 2) := by
    unfold Dec.string
    rw [bind_ok ((reads_int16 (-1)).1 d hd tail hr), if_pos rfl]
    rfl
  unfold Dec.string at this
  rw [bind_ok this]
  rfl

/-- `NullableString` never returns nil at all. -/
theorem C03_never_nil (d d' : Decoder) : Dec.nullableString d ≠ .ok none d' := by
  unfold Dec.nullableString
  cases h : Dec.string d with
  | ok a d1 => rw [bind_ok h]; simp [Dec.pure]
  | err e d1 => rw [bind_err h]; simp
  | panic => rw [bind_panic h]; simp

example : ∃ d : Decoder, d.Valid ∧ d.rest = bytesOf (·.putNullableString none) ++ [7] :=
  ⟨newDecoder _ _, newDecoder_valid (by decide), newDecoder_rest _⟩

/-! ### C04 -/

/-- A byte slice shorter than 2^31 round-trips; nil comes back empty. -/
theorem C04_bytes (s : Slice Byte) (h : s.len < 2 ^ 31) :
    RoundTrip (·.putBytes s) Dec.bytes (Wire.bytes s) (some s.elems) :=
  roundTrip_of (emits_bytes s) (reads_bytes h).1

example : RoundTrip (·.putBytes (some [1, 2, 3])) Dec.bytes [0, 0, 0, 3, 1, 2, 3] (some [1, 2, 3]) :=
  C04_bytes _ (by decide)
example : RoundTrip (·.putBytes none) Dec.bytes [0, 0, 0, 0] (some []) := C04_bytes none (by decide)

/-! ### C05 -/

theorem C05_int32Array (s : Slice Int32) (h : s.len < 2 ^ 31) :
    RoundTrip (·.putInt32Array s) Dec.int32Array (Wire.nullableArray Wire.int32 s) s :=
  roundTrip_of (emits_int32Array s) (reads_int32Array h).1
theorem C05_int64Array (s : Slice Int64) (h : s.len < 2 ^ 31) :
    RoundTrip (·.putInt64Array s) Dec.int64Array (Wire.nullableArray Wire.int64 s) s :=
  roundTrip_of (emits_int64Array s) (reads_int64Array h).1
theorem C05_stringArray (s : Slice GoString) (h : s.len < 2 ^ 31)
    (hs : ∀ x ∈ s.elems, x.length < 2 ^ 15) :
    RoundTrip (·.putStringArray s) Dec.stringArray (Wire.nullableArray Wire.string s) s :=
  roundTrip_of (emits_stringArray s) (reads_stringArray ⟨h, hs⟩).1

example : RoundTrip (·.putInt32Array none) Dec.int32Array [0xFF, 0xFF, 0xFF, 0xFF] none :=
  C05_int32Array none (by decide)
example : RoundTrip (·.putInt32Array (some [])) Dec.int32Array [0, 0, 0, 0] (some []) :=
  C05_int32Array (some []) (by decide)
example : RoundTrip (·.putStringArray (some [goString "a", []])) Dec.stringArray
    [0, 0, 0, 2, 0, 1, 0x61, 0, 0] (some [goString "a", []]) :=
  C05_stringArray _ (by decide) (by decide)

/-! ### C06 -/

/-- Every int64 round-trips as a zig-zag base 128 number of at most ten bytes. -/
theorem C06_varInt (x : Int64) :
    RoundTrip (·.putVarInt x) Dec.varInt (Wire.base128 (Wire.zigzag x.toInt)) x ∧
      (Wire.base128 (Wire.zigzag x.toInt)).length ≤ 10 :=
  ⟨roundTrip_of (emits_varInt x) (exact_varInt x), varInt_length x⟩

example : bytesOf (·.putVarInt (-300)) = [0xD7, 0x04] := by
  rw [(emits_varInt (-300)).bytesOf]
  have : Wire.zigzag (-300) = 599 := by decide
  show Wire.base128 (Wire.zigzag (-300)) = _
  rw [this]
  simp [Wire.base128]

/-! ### C07 -/

theorem C07_varBytes (s : Slice Byte) (h : s.len < 2 ^ 62) :
    RoundTrip (·.putVarBytes s) Dec.varBytes (Wire.varBytes s) (some s.elems) :=
  roundTrip_pours (pours_varBytes s) (exact_varBytes h)

/-- Strings that are valid UTF-8 round-trip; others do not: `C07_fails`. -/
theorem C07_varString_partial (s : GoString) (h : s.length < 2 ^ 62) (hv : ValidUtf8 s) :
    RoundTrip (·.putVarString s) Dec.varString (Wire.varString s) s :=
  roundTrip_pours (pours_varString hv) (exact_varString h hv)

/-- The one-byte string `"\xff"` is announced as one byte but written as three, and reads
back as the replacement character's first byte turned into a replacement character: the
reader is left two bytes short of the end of the value. -/
theorem C07_fails : ∃ s : GoString, bytesOf (·.putVarString s) = [2, 0xEF, 0xBF, 0xBD] ∧
    Dec.varString (newDecoder (bytesOf (·.putVarString s)) 4) =
      .ok [0xEF, 0xBF, 0xBD] { raw := [2, 0xEF, 0xBF, 0xBD], length := 4, offset := 2 } ∧
    s ≠ [0xEF, 0xBF, 0xBD] := by
  have h1 : bytesOf (·.putVarString [0xFF]) = [2, 0xEF, 0xBF, 0xBD] := by
    rw [(pours_varString_any [0xFF]).bytesOf]
    have : Wire.varInt (Int64.ofNat ([0xFF] : GoString).length) = [2] := by
      show Wire.base128 2 = _
      simp [Wire.base128]
    rw [this]
    decide
  refine ⟨[0xFF], h1, ?_, by decide⟩
  rw [h1]
  decide

example : ValidUtf8 (goString "key") := ⟨['k', 'e', 'y'], by decide⟩

/-! ### C08 -/

/-- `get`, given only a strict prefix of `bs` (nothing at all included), returns an error
recognised by `IsInsufficientDataError`. -/
def RejectsPrefix {α : Type} (get : Dec α) (bs : List Byte) : Prop :=
  ∀ d, d.Valid → d.rest <+: bs → d.rest ≠ bs →
    ∃ e d', get d = .err e d' ∧ isInsufficientDataError e = true

theorem rejectsPrefix_of {α : Type} {get : Dec α} {bs : List Byte} {a : α} (h : Reads get bs a) :
    RejectsPrefix get bs := fun d hd h1 h2 => by
  obtain ⟨d', h'⟩ := h.2 d hd h1 h2
  exact ⟨_, d', h', rfl⟩

theorem C08_bool (b : Bool) : RejectsPrefix Dec.bool (bytesOf (·.putBool b)) := by
  rw [(emits_bool b).bytesOf]; exact rejectsPrefix_of (reads_bool b)
theorem C08_int8 (i : Int8) : RejectsPrefix Dec.int8 (bytesOf (·.putInt8 i)) := by
  rw [(emits_int8 i).bytesOf]; exact rejectsPrefix_of (reads_int8 i)
theorem C08_int16 (i : Int16) : RejectsPrefix Dec.int16 (bytesOf (·.putInt16 i)) := by
  rw [(emits_int16 i).bytesOf]; exact rejectsPrefix_of (reads_int16 i)
theorem C08_int32 (i : Int32) : RejectsPrefix Dec.int32 (bytesOf (·.putInt32 i)) := by
  rw [(emits_int32 i).bytesOf]; exact rejectsPrefix_of (reads_int32 i)
theorem C08_int64 (i : Int64) : RejectsPrefix Dec.int64 (bytesOf (·.putInt64 i)) := by
  rw [(emits_int64 i).bytesOf]; exact rejectsPrefix_of (reads_int64 i)
theorem C08_string (s : GoString) (h : s.length < 2 ^ 15) :
    RejectsPrefix Dec.string (bytesOf (·.putString s)) := by
  rw [(emits_string s).bytesOf]; exact rejectsPrefix_of (reads_string h)
theorem C08_nullableString (s : GoString) (h : s.length < 2 ^ 15) :
    RejectsPrefix Dec.nullableString (bytesOf (·.putNullableString (some s))) := by
  rw [(emits_nullableString _).bytesOf]; exact rejectsPrefix_of (reads_nullableString h)
theorem C08_bytes (s : Slice Byte) (h : s.len < 2 ^ 31) :
    RejectsPrefix Dec.bytes (bytesOf (·.putBytes s)) := by
  rw [(emits_bytes s).bytesOf]; exact rejectsPrefix_of (reads_bytes h)
theorem C08_int32Array (s : Slice Int32) (h : s.len < 2 ^ 31) :
    RejectsPrefix Dec.int32Array (bytesOf (·.putInt32Array s)) := by
  rw [(emits_int32Array s).bytesOf]; exact rejectsPrefix_of (reads_int32Array h)
theorem C08_int64Array (s : Slice Int64) (h : s.len < 2 ^ 31) :
    RejectsPrefix Dec.int64Array (bytesOf (·.putInt64Array s)) := by
  rw [(emits_int64Array s).bytesOf]; exact rejectsPrefix_of (reads_int64Array h)
theorem C08_stringArray (s : Slice GoString) (h : s.len < 2 ^ 31)
    (hs : ∀ x ∈ s.elems, x.length < 2 ^ 15) :
    RejectsPrefix Dec.stringArray (bytesOf (·.putStringArray s)) := by
  rw [(emits_stringArray s).bytesOf]; exact rejectsPrefix_of (reads_stringArray ⟨h, hs⟩)

/-- As `RejectsPrefix`, for a decoder whose buffer ends at the declared length. -/
def RejectsPrefixFull {α : Type} (get : Dec α) (bs : List Byte) : Prop :=
  ∀ d, d.Valid → d.length = d.raw.length → d.rest <+: bs → d.rest ≠ bs →
    ∃ e d', get d = .err e d' ∧ isInsufficientDataError e = true

theorem rejectsFull_of {α : Type} {get : Dec α} {bs : List Byte} (h : Short get bs) :
    RejectsPrefixFull get bs := fun d hd hf h1 h2 => by
  obtain ⟨d', h'⟩ := h d hd hf h1 h2
  exact ⟨_, d', h', rfl⟩

/-- For the variable-length formats only if no other bytes lie behind the declared length
in the buffer; otherwise see `C08_fails`. -/
theorem C08_varInt_partial (x : Int64) : RejectsPrefixFull Dec.varInt (bytesOf (·.putVarInt x)) := by
  rw [(emits_varInt x).bytesOf]; exact rejectsFull_of (Short.varInt x)
theorem C08_varBytes_partial (s : Slice Byte) (h : s.len < 2 ^ 62) :
    RejectsPrefixFull Dec.varBytes (bytesOf (·.putVarBytes s)) := by
  rw [(pours_varBytes s).bytesOf]; exact rejectsFull_of (Short.varBytes h)
theorem C08_varString_partial (s : GoString) (h : s.length < 2 ^ 62) (hv : ValidUtf8 s) :
    RejectsPrefixFull Dec.varString (bytesOf (·.putVarString s)) := by
  rw [(pours_varString hv).bytesOf]; exact rejectsFull_of (Short.varString h)

/-- `VarInt` reads past the declared length: the two-byte varint of 64 with only its first
byte declared is completed from a stale byte, and the position passes the length. -/
theorem C08_fails : Dec.varInt { raw := [0x80, 0x01], length := 1, offset := 0 } =
    .ok 64 { raw := [0x80, 0x01], length := 1, offset := 2 } := by decide

/-- Truncated buffers as in the hypotheses. -/
example : ∃ e d', Dec.string (newDecoder [0, 5, 0x74] 3) = .err e d' ∧
    isInsufficientDataError e = true := by
  refine C08_string (goString "topic") (by decide) _ (newDecoder_valid (bs := [0, 5, 0x74]) (by decide))
    ?_ ?_
  · decide
  · decide

/-! ### C09 -/

/-- The negation of C09, for every overlong varint at every position: `VarInt` accepts it
as zero and moves the position *backwards* by its length, so the decoder reads the
preceding bytes again. -/
theorem C09_fails (d : Decoder) (hd : d.Valid) (h : Overlong d.rest) :
    ∃ k : Nat, 10 ≤ k ∧ Dec.varInt d = .ok 0 { d with offset := d.offset - k } := by
  obtain ⟨k, h1, _, h3⟩ := varInt_overlong d hd h
  exact ⟨k, h1, h3⟩

/-- The overflow error is never returned. -/
theorem C09_never_reported (d d' : Decoder) : Dec.varInt d ≠ .err .varIntOverflow d' :=
  varInt_never_overflow d d'

/-- What remains true: a varint whose continuation never ends is rejected. -/
theorem C09_partial (d : Decoder) (hd : d.Valid) (hf : d.length = d.raw.length)
    (h : ∀ b ∈ d.rest, 0x80 ≤ b.toNat) :
    Dec.varInt d = .err .shortBuffer { d with offset := d.length } := by
  have := hd.off_nonneg; have := hd.off_le; have := hd.len_le
  have hs : goSliceFrom d.raw d.offset = some d.rest := by
    unfold goSliceFrom Decoder.rest
    rw [if_pos (by omega), List.take_of_length_le (by omega)]
  unfold Dec.varInt
  rw [hs]
  simp only [varint_unterminated d.rest h, if_true]

/-- An overlong varint: eleven bytes. -/
example : Overlong (List.replicate 10 0xFF ++ [0x01]) :=
  ⟨List.replicate 10 0xFF, 0x01, [], rfl, by simp, by decide, by simp⟩

example : Dec.varInt { raw := [0, 0, 0] ++ List.replicate 10 0xFF ++ [0x01], length := 14, offset := 3 } =
    .ok 0 { raw := [0, 0, 0] ++ List.replicate 10 0xFF ++ [0x01], length := 14, offset := -8 } := by
  decide

/-! ### C10 -/

/-- The negation of C10: a broker can crash the client with a negative length. -/
theorem C10_string_panics : Dec.string (newDecoder [0xFF, 0xFE] 2) = .panic := by decide
theorem C10_bytes_panics : Dec.bytes (newDecoder [0xFF, 0xFF, 0xFF, 0xFF] 4) = .panic := by decide
theorem C10_array_panics : Dec.int32Array (newDecoder [0xFF, 0xFF, 0xFF, 0xFE] 4) = .panic := by decide
theorem C10_varBytes_panics : Dec.varBytes (newDecoder [0x01] 1) = .panic := by decide

end Kafka.Props
