import Verif.RecordBatch.Spec
import Verif.Message.VarDec
/-!
Lemmas about record batches.
-/
namespace Kafka.Record

open Kafka

/-- Over a reliable writer, `f` does not panic, appends `bs` and leaves no error. -/
def PoursOpt (f : Encoder → Option Encoder) (bs : List Byte) : Prop :=
  ∀ e, Reliable e → ∃ e', f e = some e' ∧ Reliable e' ∧ e'.out = e.out ++ bs

theorem Pours.opt {f : Encoder → Encoder} {bs : List Byte} (h : Pours f bs) :
    PoursOpt (fun e => some (f e)) bs := fun e he => ⟨f e, rfl, (h e he).1, (h e he).2⟩

theorem Pours.thenOpt {f : Encoder → Encoder} {g : Encoder → Option Encoder} {as bs : List Byte}
    (hf : Pours f as) (hg : PoursOpt g bs) : PoursOpt (fun e => g (f e)) (as ++ bs) := fun e he => by
  have h1 := hf e he
  obtain ⟨e', h2, h3, h4⟩ := hg _ h1.1
  exact ⟨e', h2, h3, by rw [h4, h1.2, List.append_assoc]⟩

theorem PoursOpt.bind {f g : Encoder → Option Encoder} {as bs : List Byte}
    (hf : PoursOpt f as) (hg : PoursOpt g bs) : PoursOpt (fun e => (f e).bind g) (as ++ bs) := fun e he => by
  obtain ⟨e1, h1, h2, h3⟩ := hf e he
  obtain ⟨e2, h4, h5, h6⟩ := hg e1 h2
  exact ⟨e2, by show (f e).bind g = _; rw [h1]; exact h4, h5, by rw [h6, h3, List.append_assoc]⟩

theorem pours_recordHeader (kv : GoString × GoString) :
    Pours (fun e => e.putRecordHeader kv.1 kv.2) (pairBytes kv) := fun e he => by
  have := ((pours_varString_any kv.1).comp (pours_varString_any kv.2)) e he
  unfold Encoder.putRecordHeader
  dsimp only
  rw [he.1]
  exact this

theorem pours_pairs (l : List (GoString × GoString)) :
    Pours (fun e => l.foldl (fun e kv => e.putRecordHeader kv.1 kv.2) e) (l.flatMap pairBytes) := by
  induction l with
  | nil => exact fun e he => ⟨he, by simp⟩
  | cons x l ih => exact (pours_recordHeader x).comp ih

theorem pours_message {call : Nat} {m : Message} {version : Int16} {first : Int64} (h : m.header.isSome) :
    PoursOpt (encodeMessage call m version first) (recordBytes (pairsOf call m) m first) := by
  obtain ⟨hd, hh⟩ := Option.isSome_iff_exists.1 h
  have h0 := pours_pairs (hd.visits call)
  have h1 := (emits_varInt 0).pours.comp ((emits_int8 0).pours.comp ((emits_varInt (m.unix - first)).pours.comp
    ((emits_varInt 0).pours.comp ((pours_varBytes m.key).comp ((pours_varBytes m.value).comp h0)))))
  have h2 := Pours.opt h1
  intro e he
  obtain ⟨e', h3, h4, h5⟩ := h2 e he
  refine ⟨e', ?_, h4, ?_⟩
  · rw [← h3]
    unfold encodeMessage
    rw [hh]
    rfl
  · rw [h5]
    unfold recordBytes pairsOf
    rw [hh]

theorem pours_messages {version : Int16} {first : Int64} (ms : List Message) (h : ∀ m ∈ ms, m.header.isSome) :
    ∀ call, PoursOpt (encodeMessages call version first ms) (recordsBytes first call ms) := by
  induction ms with
  | nil => exact fun _ e he => ⟨e, rfl, he, by simp [recordsBytes]⟩
  | cons m ms ih =>
    intro call
    exact (pours_message (h m (by simp))).bind (ih (fun x hx => h x (by simp [hx])) (call + 1))

theorem pours_batch {call : Nat} {r : Batch} {version : Int16}
    (h : ∀ m ∈ r.records.elems, m.header.isSome) :
    PoursOpt (r.encode call version) (fixedBytes r ++ recordsBytes r.firstTimestamp call r.records.elems) := by
  have h1 := (emits_int64 r.baseOffset).pours.comp ((emits_int32 r.batchLength).pours.comp
    ((emits_int32 r.partitionLeaderEpoch).pours.comp ((emits_int8 2).pours.comp ((emits_int32 r.crc).pours.comp
    ((emits_int16 r.attributes).pours.comp ((emits_int32 r.lastOffsetDelta).pours.comp
    ((emits_int64 r.firstTimestamp).pours.comp ((emits_int64 r.maxTimestamp).pours.comp
    ((emits_int64 r.producerId).pours.comp ((emits_int16 r.producerEpoch).pours.comp
    (emits_int32 r.baseSequence).pours))))))))))
  have h2 := Pours.thenOpt h1 (pours_messages (version := version) (first := r.firstTimestamp) r.records.elems h call)
  exact h2

theorem encodeMessage_panic {call : Nat} {m : Message} {version : Int16} {first : Int64} {e : Encoder} :
    encodeMessage call m version first e = none ↔ m.header = none := by
  unfold encodeMessage
  simp

theorem encodeMessages_panic {version : Int16} {first : Int64} (ms : List Message) :
    ∀ call e, encodeMessages call version first ms e = none ↔ ∃ m ∈ ms, m.header = none := by
  induction ms with
  | nil => intro call e; simp [encodeMessages]
  | cons m ms ih =>
    intro call e
    rw [encodeMessages]
    cases hm : encodeMessage call m version first e with
    | none => simp [encodeMessage_panic.1 hm]
    | some e' =>
      have : m.header ≠ none := fun h => by rw [encodeMessage_panic.2 h] at hm; cases hm
      simp [ih, this]

/-! ### Sizes -/

def varIntLen (i : Int64) : Nat := (Wire.varInt i).length

/-- What `sizeofMessage` counts for a pair. -/
def pairSize (kv : GoString × GoString) : Nat := (Wire.varString kv.1).length + (Wire.varString kv.2).length

/-- What `sizeofMessage` counts for a record. -/
def recordSize (pairs : List (GoString × GoString)) (m : Message) (version : Int16) (base first : Int64) : Nat :=
  1 + varIntLen (m.unix - first) + varIntLen (m.offset - base) + varIntLen (Int64.ofNat m.key.len) +
    (4 + m.key.len) + varIntLen (Int64.ofNat m.value.len) + (4 + m.value.len) +
    (if version ≥ 2 then (pairs.map pairSize).sum else 0)

theorem ofNat_varInt (i : Int64) : Sizeof.varInt i = Int32.ofNat (varIntLen i) := sized_varInt i

theorem foldl_pairs (l : List (GoString × GoString)) : ∀ (n : Nat),
    l.foldl (fun sz kv => sz + Sizeof.varString kv.1 + Sizeof.varString kv.2) (Int32.ofNat n) =
      Int32.ofNat (n + (l.map pairSize).sum) := by
  induction l with
  | nil => intro n; simp
  | cons x l ih =>
    intro n
    have h1 : Sizeof.varString x.1 = Int32.ofNat (Wire.varString x.1).length := sized_varString x.1
    have h2 : Sizeof.varString x.2 = Int32.ofNat (Wire.varString x.2).length := sized_varString x.2
    rw [List.foldl_cons, h1, h2, ← Int32.ofNat_add, ← Int32.ofNat_add, ih]
    simp only [List.map_cons, List.sum_cons, pairSize]
    congr 1
    omega

theorem sizeofMessage_eq (call : Nat) (m : Message) (version : Int16) (base first : Int64) :
    sizeofMessage call m version base first =
      Int32.ofNat (recordSize (pairsOf call m) m version base first) := by
  have e : (0 : Int32) + Sizeof.int8 + Sizeof.varInt (m.unix - first) + Sizeof.varInt (m.offset - base) +
      Sizeof.varInt (Int64.ofNat m.key.len) + Sizeof.bytes m.key + Sizeof.varInt (Int64.ofNat m.value.len) +
      Sizeof.bytes m.value = Int32.ofNat (1 + varIntLen (m.unix - first) + varIntLen (m.offset - base) +
        varIntLen (Int64.ofNat m.key.len) + (4 + m.key.len) + varIntLen (Int64.ofNat m.value.len) + (4 + m.value.len)) := by
    simp only [ofNat_varInt, Sizeof.bytes, Int32.ofNat_add]
    rfl
  unfold sizeofMessage recordSize pairsOf
  dsimp only
  rw [e]
  cases m.header with
  | none => simp
  | some h =>
    dsimp only
    split
    · rw [foldl_pairs]
    · rw [Nat.add_zero]

def recordsSize (version : Int16) (base first : Int64) : Nat → List Message → Nat
  | _, [] => 0
  | call, m :: ms => recordSize (pairsOf call m) m version base first + recordsSize version base first (call + 1) ms

theorem sizeofMessages_eq (version : Int16) (base first : Int64) (ms : List Message) :
    ∀ (call n : Nat), sizeofMessages call version base first ms (Int32.ofNat n) =
      Int32.ofNat (n + recordsSize version base first call ms) := by
  induction ms with
  | nil => intro call n; simp [sizeofMessages, recordsSize]
  | cons m ms ih =>
    intro call n
    rw [sizeofMessages, sizeofMessage_eq, ← Int32.ofNat_add, ih, recordsSize]
    congr 1
    omega

theorem batch_size_eq (call : Nat) (r : Batch) (version : Int16) :
    r.size call version =
      Int32.ofNat (57 + recordsSize version r.baseOffset r.firstTimestamp call r.records.elems) := by
  rw [← sizeofMessages_eq]
  rfl

theorem pairBytes_length {kv : GoString × GoString} (h1 : ValidUtf8 kv.1) (h2 : ValidUtf8 kv.2) :
    (pairBytes kv).length = pairSize kv := by
  unfold pairBytes pairSize
  rw [sanitize_valid h1, sanitize_valid h2]
  simp [Wire.varString]
  omega

theorem pairs_length {l : List (GoString × GoString)} (h : ∀ kv ∈ l, ValidUtf8 kv.1 ∧ ValidUtf8 kv.2) :
    (l.flatMap pairBytes).length = (l.map pairSize).sum := by
  induction l with
  | nil => rfl
  | cons x l ih =>
    have hx := h x (by simp)
    rw [List.flatMap_cons, List.length_append, pairBytes_length hx.1 hx.2, ih (fun y hy => h y (by simp [hy]))]
    simp

theorem fixed_length (r : Batch) : (fixedBytes r).length = 57 := by
  simp [fixedBytes, Wire.int64, Wire.int32, Wire.int16, Wire.int8, Wire.bigEndian]

theorem varIntLen_zero : varIntLen 0 = 1 := by
  show (Wire.base128 0).length = 1
  simp [Wire.base128]

theorem recordBytes_length {pairs : List (GoString × GoString)} {m : Message} {first : Int64} :
    (recordBytes pairs m first).length = 3 + varIntLen (m.unix - first) + varIntLen (Int64.ofNat m.key.len) + m.key.len +
      varIntLen (Int64.ofNat m.value.len) + m.value.len + (pairs.flatMap pairBytes).length := by
  have := varIntLen_zero
  unfold varIntLen at *
  have h8 : (Wire.int8 0).length = 1 := by simp [Wire.int8, Wire.bigEndian]
  simp only [recordBytes, List.length_append, Wire.varBytes, Slice.len, this, h8]
  omega

/-! ### Reading back -/

theorem exact_loop {α : Type} {f : Dec α} {w : α → List Byte} (l : List α) (h : ∀ x ∈ l, Exact f (w x) x) :
    Exact (Dec.loop f l.length) (l.flatMap w) l := by
  induction l with
  | nil => exact Exact.pure _
  | cons x l ih => exact (h x (by simp)).bind (Exact.map (ih fun y hy => h y (by simp [hy])))

theorem exact_pair {kv : GoString × GoString} (h1 : ValidUtf8 kv.1) (h2 : ValidUtf8 kv.2)
    (l1 : kv.1.length < 2 ^ 62) (l2 : kv.2.length < 2 ^ 62) : Exact readPair (pairBytes kv) kv := by
  unfold pairBytes
  rw [sanitize_valid h1, sanitize_valid h2]
  exact (exact_varString l1 h1).bind (Exact.map (g := fun v => (kv.1, v)) (exact_varString l2 h2))

theorem exact_record {pairs : List (GoString × GoString)} {m : Message} {first : Int64}
    (hk : m.key.len < 2 ^ 62) (hv : m.value.len < 2 ^ 62)
    (hp : ∀ kv ∈ pairs, ValidUtf8 kv.1 ∧ ValidUtf8 kv.2 ∧ kv.1.length < 2 ^ 62 ∧ kv.2.length < 2 ^ 62) :
    Exact (readRecord pairs.length) (recordBytes pairs m first) (readOf pairs m first) := by
  refine (exact_varInt 0).bind ((reads_int8 0).exact.bind ((exact_varInt _).bind ((exact_varInt 0).bind
    ((exact_varBytes hk).bind ((exact_varBytes hv).bind (Exact.map (exact_loop pairs ?_)))))))
  intro kv hkv
  obtain ⟨h1, h2, h3, h4⟩ := hp kv hkv
  exact exact_pair h1 h2 h3 h4

end Kafka.Record
