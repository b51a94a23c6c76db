import Verif.Props.Primitives
import Verif.Gen.All
/-!
Properties C10 to C12: any bytes in place of a message, and sequences of encoder calls over any writer.
-/
namespace Kafka.Props

open Kafka

/-! ### C10 -/

/-- A response that crashes the client: FindCoordinator version 0 with host length -2. -/
theorem C10_fails : Msg.FindCoordinatorResponse.decode 0 {}
    (newDecoder [0, 0, 0, 0, 0, 0, 0xFF, 0xFE] 8) = .panic := rfl

/-- What remains true: without a byte that has its top bit set there is no negative length
and no message Decode panics, whatever else the bytes are. -/
theorem C10_partial (p : Σ M : MsgType, Layout M) (hp : p ∈ Msg.all) (version : Int16) (t0 : p.1.T)
    (d : Decoder) (hd : d.Valid) (h : ∀ b ∈ d.rest, b.toNat < 0x80) :
    p.1.decode version t0 d ≠ .panic :=
  (((Msg.all_lawful p hp).calm version t0) d hd h).1

/-- Some message type and some bytes as in the hypotheses. -/
example : ∃ p ∈ Msg.all, p.1.name = "ProduceRequest" :=
  ⟨⟨Msg.ProduceRequest.type, Msg.ProduceRequest.layout⟩,
    List.mem_flatten.2 ⟨Msg.typesProduce, by simp [Msg.byApi], by simp [Msg.typesProduce]⟩, rfl⟩

/-! ### C11 -/

/-- Decoding a message depends only on the bytes between position and declared length:
two decoders that agree there (whatever precedes or follows in their buffers) give the same
value or the same error, after the same number of bytes, and the position never leaves
the declared range. -/
theorem C11_messages (p : Σ M : MsgType, Layout M) (hp : p ∈ Msg.all) (version : Int16)
    (t0 : p.1.T) (d₁ d₂ : Decoder) (h₁ : d₁.Valid) (h₂ : d₂.Valid) (h : d₁.rest = d₂.rest) :
    (∃ t n, n ≤ d₁.rest.length ∧ p.1.decode version t0 d₁ = .ok t (d₁.skip n) ∧
      p.1.decode version t0 d₂ = .ok t (d₂.skip n)) ∨
    (∃ e n, n ≤ d₁.rest.length ∧ p.1.decode version t0 d₁ = .err e (d₁.skip n) ∧
      p.1.decode version t0 d₂ = .err e (d₂.skip n)) ∨
    (p.1.decode version t0 d₁ = .panic ∧ p.1.decode version t0 d₂ = .panic) := by
  obtain ⟨f, f1, f2, _⟩ := (Msg.all_lawful p hp).tame version t0
  have hu := f1 d₁.rest
  rw [f2 d₁ h₁, f2 d₂ h₂, ← h]
  cases hf : f d₁.rest with
  | ok a n => rw [hf] at hu; exact Or.inl ⟨a, n, hu, rfl, rfl⟩
  | err e n => rw [hf] at hu; exact Or.inr (Or.inl ⟨e, n, hu, rfl, rfl⟩)
  | panic => exact Or.inr (Or.inr ⟨rfl, rfl⟩)

/-- The only error a message Decode returns is insufficient data. -/
theorem C11_errors (p : Σ M : MsgType, Layout M) (hp : p ∈ Msg.all) (version : Int16)
    (t0 : p.1.T) (d d' : Decoder) (h : d.Valid) (e : DErr)
    (he : p.1.decode version t0 d = .err e d') : isInsufficientDataError e = true := by
  obtain ⟨f, _, f2, f3⟩ := (Msg.all_lawful p hp).tame version t0
  rw [f2 d h] at he
  cases hf : f d.rest with
  | ok a n => rw [hf] at he; simp [POut.lift] at he
  | err e' n =>
    rw [hf] at he
    simp only [POut.lift, Res.err.injEq] at he
    rw [← he.1, f3 _ _ _ hf]; rfl
  | panic => rw [hf] at he; simp [POut.lift] at he

/-- Two different buffers that agree on the declared bytes. -/
example : (newDecoder [1, 2] 2).rest = ({ raw := [9, 1, 2, 8], length := 3, offset := 1 } : Decoder).rest := by
  decide

/-- `VarInt` violates this on its own (it is not used by any message type). -/
theorem C11_varInt_fails :
    (∃ d₁ d₂ : Decoder, d₁.Valid ∧ d₂.Valid ∧ d₁.rest = d₂.rest ∧ d₁.length = d₂.length ∧
      d₁.offset = d₂.offset ∧
      (∃ d', Dec.varInt d₁ = .ok 64 d') ∧ (∃ d', Dec.varInt d₂ = .ok 128 d')) := by
  refine ⟨{ raw := [0x80, 0x01], length := 1, offset := 0 }, { raw := [0x80, 0x02], length := 1, offset := 0 },
    ?_, ?_, by decide, rfl, rfl,
    ⟨{ raw := [0x80, 0x01], length := 1, offset := 2 }, by decide⟩,
    ⟨{ raw := [0x80, 0x02], length := 1, offset := 2 }, by decide⟩⟩
  · constructor <;> decide
  · constructor <;> decide

/-! ### C12 -/

/-- The encoder calls covered by C12: every `Put` method except `PutVarBytes`,
`PutVarString` and `PutRecordHeader`, and the `Encode` method of every message type. -/
inductive PutOp where
  | bool (b : Bool) | int8 (i : Int8) | int16 (i : Int16) | int32 (i : Int32) | int64 (i : Int64)
  | string (s : GoString) | nullableString (s : Option GoString) | bytes (s : Slice Byte)
  | int32Array (s : Slice Int32) | int64Array (s : Slice Int64) | stringArray (s : Slice GoString)
  | arrayLength (n : Nat) | varInt (i : Int64)
  | message (p : Σ M : MsgType, Layout M) (hp : p ∈ Msg.all) (version : Int16) (t : p.1.T)

/-- The call. -/
def PutOp.run : PutOp → Encoder → Encoder
  | .bool b => (·.putBool b) | .int8 i => (·.putInt8 i) | .int16 i => (·.putInt16 i)
  | .int32 i => (·.putInt32 i) | .int64 i => (·.putInt64 i)
  | .string s => (·.putString s) | .nullableString s => (·.putNullableString s)
  | .bytes s => (·.putBytes s) | .int32Array s => (·.putInt32Array s)
  | .int64Array s => (·.putInt64Array s) | .stringArray s => (·.putStringArray s)
  | .arrayLength n => (·.putArrayLength n) | .varInt i => (·.putVarInt i)
  | .message p _ version t => p.1.encode version t

/-- The bytes it stands for. -/
def PutOp.wire : PutOp → List Byte
  | .bool b => Wire.bool b | .int8 i => Wire.int8 i | .int16 i => Wire.int16 i
  | .int32 i => Wire.int32 i | .int64 i => Wire.int64 i
  | .string s => Wire.string s | .nullableString s => Wire.nullableString s
  | .bytes s => Wire.bytes s | .int32Array s => Wire.int32Array s
  | .int64Array s => Wire.int64Array s | .stringArray s => Wire.stringArray s
  | .arrayLength n => Wire.int32 (Int32.ofNat n) | .varInt i => Wire.varInt i
  | .message p _ version t => p.2.wire version t

theorem PutOp.emits (op : PutOp) : Emits op.run op.wire := by
  cases op with
  | bool b => exact emits_bool b
  | int8 i => exact emits_int8 i
  | int16 i => exact emits_int16 i
  | int32 i => exact emits_int32 i
  | int64 i => exact emits_int64 i
  | string s => exact emits_string s
  | nullableString s => exact emits_nullableString s
  | bytes s => exact emits_bytes s
  | int32Array s => exact emits_int32Array s
  | int64Array s => exact emits_int64Array s
  | stringArray s => exact emits_stringArray s
  | arrayLength n => exact emits_arrayLength n
  | varInt i => exact emits_varInt i
  | message p hp version t => exact (Msg.all_lawful p hp).emits version t

/-- Run a sequence of calls on a new encoder over a writer that fails as `faults` says. -/
def runAll (faults : Nat → Option (Nat × WErr)) (ops : List PutOp) : Encoder :=
  ops.foldl (fun e op => op.run e) (newEncoder faults)

theorem runAll_ran (faults : Nat → Option (Nat × WErr)) (ops : List PutOp) :
    Ran (newEncoder faults) (runAll faults ops) (ops.flatMap PutOp.wire) :=
  Emits.ran (f := fun e => ops.foldl (fun e op => op.run e) e)
    (Emits.foldl (f := PutOp.run) PutOp.emits ops) rfl

/-- For every sequence of calls and every writer: what has reached the writer is a prefix
of the encoding, all of it if there is no error; and if there is an error `x`, it is the
first one the writer returned, no `Write` was made after it, `Flush` reports it, and no
later call changes anything. -/
theorem C12_sticky_partial (faults : Nat → Option (Nat × WErr)) (ops : List PutOp) :
    let e := runAll faults ops
    e.out <+: ops.flatMap PutOp.wire ∧
    (e.err = none → e.out = ops.flatMap PutOp.wire ∧ ∀ k < e.calls, faults k = none) ∧
    (∀ x, e.err = some x →
      (∃ k m, e.calls = k + 1 ∧ faults k = some (m, x) ∧ ∀ j < k, faults j = none) ∧
      (∀ target, e.flush target = some x) ∧
      ∀ op : PutOp, op.run e = e) := by
  have h := runAll_ran faults ops
  refine ⟨?_, ?_, ?_⟩
  · obtain ⟨p, h1, h2⟩ := h.pre
    rw [h2]
    simpa [newEncoder] using h1
  · intro he
    refine ⟨by simpa [newEncoder] using h.full he, fun k hk => h.clean he k (Nat.zero_le _) hk⟩
  · intro x hx
    refine ⟨?_, fun target => by simp [Encoder.flush, hx], fun op => op.emits.sticky (by simp [hx])⟩
    obtain ⟨k, m, h1, _, h3, h4⟩ := h.stop x hx
    exact ⟨k, m, h1, h3, fun j hj => h4 j (Nat.zero_le _) hj⟩

/-- A writer that fails in the middle of a string: its length and two bytes get through. -/
example : let e := runAll (fun k => if k = 1 then some (2, ⟨7⟩) else none) [.string (goString "topic"), .int32 5]
    e.err = some ⟨7⟩ ∧ e.out = [0, 5, 0x74, 0x6F] ∧ e.calls = 2 := by decide

/-- The negation for `PutVarBytes`: when the write of the length fails but the next one
succeeds, the error is lost, `Flush` reports success and what has reached the writer is
not a prefix of the encoding. -/
theorem C12_varBytes_fails :
    let e := (newEncoder fun k => if k = 0 then some (0, ⟨7⟩) else none).putVarBytes (some [1, 2])
    e.flush none = none ∧ e.out = [1, 2] ∧ ¬ e.out <+: Wire.varBytes (some [1, 2]) := by
  refine ⟨by decide, by decide, ?_⟩
  have h1 : Wire.varBytes (some [1, 2]) = [4, 1, 2] := by
    have : Wire.base128 4 = [4] := by simp [Wire.base128]
    show Wire.base128 4 ++ [1, 2] = _
    rw [this]; rfl
  rw [h1]
  decide

/-- The same for `PutVarString`. -/
theorem C12_varString_fails :
    let e := (newEncoder fun k => if k = 0 then some (0, ⟨7⟩) else none).putVarString (goString "a")
    e.flush none = none ∧ e.out = goString "a" := by decide

end Kafka.Props
