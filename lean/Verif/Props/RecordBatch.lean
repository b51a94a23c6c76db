import Verif.RecordBatch.Lemmas
/-!
Properties of record batches (C42–C44).

`call` arguments number the calls of `Range` made on headers: a header may visit its pairs in a
different order in each.
-/
namespace Kafka.Props

open Kafka Kafka.Record

/-- The bytes `Encode` writes to a writer that does not fail (`none`: panic). -/
def batchBytes (call : Nat) (r : Batch) (version : Int16) : Option (List Byte) :=
  (r.encode call version (newEncoder fun _ => none)).map (·.out)

theorem batchBytes_eq {call : Nat} {r : Batch} {version : Int16} (h : ∀ m ∈ r.records.elems, m.header.isSome) :
    batchBytes call r version = some (fixedBytes r ++ recordsBytes r.firstTimestamp call r.records.elems) := by
  obtain ⟨e', h1, h2, h3⟩ := pours_batch (call := call) (version := version) h (newEncoder fun _ => none)
    ⟨rfl, fun _ => rfl⟩
  unfold batchBytes
  rw [h1, Option.map_some, h3]
  simp [newEncoder]

/-! ## C42: Size -/

/-- The full claim: `Size` (a wrapping int32) is the number of bytes `Encode` writes. -/
def C42_statement (r : Batch) (version : Int16) : Prop :=
  ∀ c1 c2 bs, batchBytes c1 r version = some bs → r.size c2 version = Int32.ofNat bs.length

/-- It holds for batches without records.  Missing: every record (see `C42_excess`). -/
theorem C42_partial (r : Batch) (version : Int16) (h : r.records.elems = []) : C42_statement r version := by
  intro c1 c2 bs hb
  rw [batchBytes_eq (by simp [h]), h] at hb
  simp only [recordsBytes, List.append_nil, Option.some.injEq] at hb
  rw [← hb, fixed_length, batch_size_eq, h]
  rfl

/-- With records, at version 2 and above, with headers that are UTF-8 and visited in any order:
`Size` exceeds the number of bytes written by six per record plus the size of the offset delta,
which is counted but written as zero. -/
def excess (base : Int64) (ms : List Message) : Nat :=
  (ms.map fun m => varIntLen (m.offset - base) + 6).sum

/-- The headers of a record: not nil, UTF-8, and the same pairs whichever call visits them. -/
structure GoodHeader (m : Message) : Prop where
  some : m.header.isSome
  same : ∀ c1 c2, (pairsOf c1 m).Perm (pairsOf c2 m)
  utf8 : ∀ c, ∀ kv ∈ pairsOf c m, ValidUtf8 kv.1 ∧ ValidUtf8 kv.2

theorem records_excess {version : Int16} (hv : version ≥ 2) {base first : Int64} (ms : List Message)
    (h : ∀ m ∈ ms, GoodHeader m) : ∀ c1 c2, recordsSize version base first c2 ms =
      (recordsBytes first c1 ms).length + excess base ms := by
  induction ms with
  | nil => intro c1 c2; rfl
  | cons m ms ih =>
    intro c1 c2
    have hm := h m (by simp)
    have hp : ((pairsOf c2 m).map pairSize).sum = ((pairsOf c1 m).flatMap pairBytes).length := by
      rw [pairs_length (hm.utf8 c1)]
      exact ((hm.same c2 c1).map pairSize).sum_nat
    rw [recordsSize, ih (fun x hx => h x (by simp [hx])) (c1 + 1) (c2 + 1), recordsBytes, List.length_append,
      recordBytes_length, recordSize, if_pos hv, hp]
    simp only [excess, List.map_cons, List.sum_cons]
    omega

theorem C42_excess (r : Batch) {version : Int16} (hv : version ≥ 2) (h : ∀ m ∈ r.records.elems, GoodHeader m)
    (c1 c2 : Nat) : ∃ bs, batchBytes c1 r version = some bs ∧
      r.size c2 version = Int32.ofNat (bs.length + excess r.baseOffset r.records.elems) := by
  refine ⟨_, batchBytes_eq (fun m hm => (h m hm).some), ?_⟩
  rw [batch_size_eq, records_excess hv _ h c1 c2, List.length_append, fixed_length]
  congr 1
  omega

/-- So the claim is false of every batch with a record (at version 2 and above, as long as the
int32 does not wrap). -/
theorem C42_fails (r : Batch) {version : Int16} (hv : version ≥ 2) (h : ∀ m ∈ r.records.elems, GoodHeader m)
    (hne : r.records.elems ≠ [])
    (hsmall : ∀ bs, batchBytes 0 r version = some bs → bs.length + excess r.baseOffset r.records.elems < 2 ^ 31) :
    ¬C42_statement r version := by
  intro hc
  obtain ⟨bs, h1, h2⟩ := C42_excess r hv h 0 0
  have h3 := hc 0 0 bs h1
  rw [h2] at h3
  have hs := hsmall bs h1
  have hpos : 0 < excess r.baseOffset r.records.elems := by
    unfold excess
    cases hr : r.records.elems with
    | nil => exact absurd hr hne
    | cons m ms => simp only [List.map_cons, List.sum_cons]; omega
  have h4 := congrArg Int32.toInt h3
  rw [Int32.toInt_ofNat_of_lt (by omega), Int32.toInt_ofNat_of_lt (by omega)] at h4
  omega

/-- A header without pairs. -/
def noPairs : Header := { visits := fun _ => [], get := fun _ => ([], false) }

/-- A batch with one record, `key` and `value`, at the given offset and time. -/
def sampleRecord (offset unix : Int64) (key value : Slice Byte) (header : Option Header) : Message :=
  { topic := [], partition := 0, offset := offset, key := key, value := value, unix := unix, header := header }

def sampleBatch (ms : List Message) : Batch :=
  { baseOffset := 10, batchLength := 0, partitionLeaderEpoch := 0, magic := 2, crc := 0, attributes := 0,
    lastOffsetDelta := 0, firstTimestamp := 1000, maxTimestamp := 2000, producerId := 7, producerEpoch := 1,
    baseSequence := 3, records := some ms }

/-- The hypotheses of `C42_excess` are met by a batch with a record. -/
example : ∀ m ∈ (sampleBatch [sampleRecord 12 1001 (some [1]) (some [2, 3]) (some noPairs)]).records.elems,
    GoodHeader m := by
  intro m hm
  simp only [sampleBatch, Slice.elems, Option.getD_some, List.mem_singleton] at hm
  subst hm
  exact ⟨rfl, fun _ _ => List.Perm.refl _, by simp [pairsOf, sampleRecord, noPairs]⟩

/-! ## C43: wire format -/

/-- `Encode` writes the fixed part field by field, big endian, magic 2, and then for each record:
length 0, attributes 0, timestamp delta, offset delta 0, key, value and header pairs. -/
theorem C43_layout (call : Nat) (r : Batch) (version : Int16) (h : ∀ m ∈ r.records.elems, m.header.isSome)
    (e : Encoder) (he : Reliable e) : ∃ e', r.encode call version e = some e' ∧ e'.err = none ∧
      e'.out = e.out ++ (fixedBytes r ++ recordsBytes r.firstTimestamp call r.records.elems) := by
  obtain ⟨e', h1, h2, h3⟩ := pours_batch (call := call) (version := version) h e he
  exact ⟨e', h1, h2.1, h3⟩

/-- It panics exactly if some record has a nil header. -/
theorem C43_panics (call : Nat) (r : Batch) (version : Int16) (e : Encoder) :
    r.encode call version e = none ↔ ∃ m ∈ r.records.elems, m.header = none :=
  encodeMessages_panic _ _ _

/-- The values in the fixed part. -/
structure Fixed where
  baseOffset : Int64
  batchLength : Int32
  partitionLeaderEpoch : Int32
  magic : Int8
  crc : Int32
  attributes : Int16
  lastOffsetDelta : Int32
  firstTimestamp : Int64
  maxTimestamp : Int64
  producerId : Int64
  producerEpoch : Int16
  baseSequence : Int32
deriving DecidableEq

/-- A reader of batches with known numbers of records and of header pairs per record. -/
def readBatch (shape : List Nat) : Dec (Fixed × List Read) := do
  let baseOffset ← Dec.int64
  let batchLength ← Dec.int32
  let partitionLeaderEpoch ← Dec.int32
  let magic ← Dec.int8
  let crc ← Dec.int32
  let attributes ← Dec.int16
  let lastOffsetDelta ← Dec.int32
  let firstTimestamp ← Dec.int64
  let maxTimestamp ← Dec.int64
  let producerId ← Dec.int64
  let producerEpoch ← Dec.int16
  let baseSequence ← Dec.int32
  let records ← readRecords shape
  pure (⟨baseOffset, batchLength, partitionLeaderEpoch, magic, crc, attributes, lastOffsetDelta, firstTimestamp,
    maxTimestamp, producerId, producerEpoch, baseSequence⟩, records)

/-- The records read back. -/
def readsOf (first : Int64) : Nat → List Message → List Read
  | _, [] => []
  | call, m :: ms => readOf (pairsOf call m) m first :: readsOf first (call + 1) ms

/-- The numbers of header pairs. -/
def shapeOf : Nat → List Message → List Nat
  | _, [] => []
  | call, m :: ms => (pairsOf call m).length :: shapeOf (call + 1) ms

/-- A record whose parts can be read back: header not nil, strings UTF-8, lengths below 2^62. -/
structure GoodRecord (m : Message) : Prop where
  header : m.header.isSome
  key : m.key.len < 2 ^ 62
  value : m.value.len < 2 ^ 62
  pairs : ∀ c, ∀ kv ∈ pairsOf c m, ValidUtf8 kv.1 ∧ ValidUtf8 kv.2 ∧ kv.1.length < 2 ^ 62 ∧ kv.2.length < 2 ^ 62

theorem exact_records {first : Int64} (ms : List Message) (h : ∀ m ∈ ms, GoodRecord m) :
    ∀ call, Exact (readRecords (shapeOf call ms)) (recordsBytes first call ms) (readsOf first call ms) := by
  induction ms with
  | nil => exact fun _ => Exact.pure _
  | cons m ms ih =>
    intro call
    have hm := h m (by simp)
    exact (exact_record hm.key hm.value (hm.pairs call)).bind
      (Exact.map (ih (fun x hx => h x (by simp [hx])) (call + 1)))

/-- A reader that knows how many records there are and how many headers each has reads everything
back except offset and length: the fixed part, and of each record the timestamp delta, key, value and
header pairs.  Missing: the offset delta and length are always 0, and neither the number of records
nor the numbers of headers are written (`C43_fails`, `C43_ambiguous`). -/
theorem C43_partial (call : Nat) (r : Batch) (version : Int16) (h : ∀ m ∈ r.records.elems, GoodRecord m)
    (d : Decoder) (hd : d.Valid) (tail : List Byte) (bs : List Byte) (hb : batchBytes call r version = some bs)
    (hr : d.rest = bs ++ tail) :
    readBatch (shapeOf call r.records.elems) d = .ok
      (⟨r.baseOffset, r.batchLength, r.partitionLeaderEpoch, 2, r.crc, r.attributes, r.lastOffsetDelta,
        r.firstTimestamp, r.maxTimestamp, r.producerId, r.producerEpoch, r.baseSequence⟩,
       readsOf r.firstTimestamp call r.records.elems) (d.skip bs.length) := by
  rw [batchBytes_eq (fun m hm => (h m hm).header), Option.some.injEq] at hb
  have hx : Exact (readBatch (shapeOf call r.records.elems))
      (fixedBytes r ++ recordsBytes r.firstTimestamp call r.records.elems)
      (⟨r.baseOffset, r.batchLength, r.partitionLeaderEpoch, 2, r.crc, r.attributes, r.lastOffsetDelta,
        r.firstTimestamp, r.maxTimestamp, r.producerId, r.producerEpoch, r.baseSequence⟩,
       readsOf r.firstTimestamp call r.records.elems) := by
    unfold fixedBytes
    simp only [List.append_assoc]
    refine (reads_int64 r.baseOffset).exact.bind ?_
    refine (reads_int32 r.batchLength).exact.bind ?_
    refine (reads_int32 r.partitionLeaderEpoch).exact.bind ?_
    refine (reads_int8 2).exact.bind ?_
    refine (reads_int32 r.crc).exact.bind ?_
    refine (reads_int16 r.attributes).exact.bind ?_
    refine (reads_int32 r.lastOffsetDelta).exact.bind ?_
    refine (reads_int64 r.firstTimestamp).exact.bind ?_
    refine (reads_int64 r.maxTimestamp).exact.bind ?_
    refine (reads_int64 r.producerId).exact.bind ?_
    refine (reads_int16 r.producerEpoch).exact.bind ?_
    refine (reads_int32 r.baseSequence).exact.bind ?_
    exact Exact.map (exact_records (first := r.firstTimestamp) r.records.elems h call)
  rw [← hb] at hr ⊢
  exact hx d hd tail hr

/-- The batch with the offsets of its records replaced. -/
def withOffsets (f : Message → Int64) (r : Batch) : Batch :=
  { r with records := Option.map (List.map fun m : Message => { m with offset := f m }) r.records }

/-- The offset of a record is not written: changing it changes nothing. -/
theorem C43_fails (call : Nat) (r : Batch) (version : Int16) (f : Message → Int64) (e : Encoder) :
    (withOffsets f r).encode call version e =
      r.encode call version e := by
  have : ∀ (ms : List Message) call e, encodeMessages call version r.firstTimestamp
      (ms.map fun m => { m with offset := f m }) e = encodeMessages call version r.firstTimestamp ms e := by
    intro ms
    induction ms with
    | nil => intro _ _; rfl
    | cons m ms ih =>
      intro call e
      rw [List.map_cons, encodeMessages, encodeMessages]
      have he : encodeMessage call { m with offset := f m } version r.firstTimestamp e =
          encodeMessage call m version r.firstTimestamp e := rfl
      rw [he]
      congr 1
      funext e'
      exact ih _ _
  unfold Batch.encode withOffsets
  dsimp only
  cases r.records with
  | none => rfl
  | some l => exact this l call _

/-- A header with the given pairs. -/
def pairsHeader (l : List (GoString × GoString)) : Header := { visits := fun _ => l, get := fun _ => ([], false) }

/-- Two batches, one with one record and two header pairs, one with two records and none, are written
as the same bytes: the encoding cannot be read back without knowing the counts. -/
theorem C43_ambiguous : ∃ r1 r2 : Batch, r1.records.len ≠ r2.records.len ∧
    (∀ m ∈ r1.records.elems ++ r2.records.elems, GoodRecord m) ∧
    batchBytes 0 r1 2 = batchBytes 0 r2 2 ∧ (batchBytes 0 r1 2).isSome := by
  refine ⟨sampleBatch [sampleRecord 10 1000 none none (some (pairsHeader [([], []), ([0, 0], [])]))],
    sampleBatch [sampleRecord 10 1000 none none (some noPairs), sampleRecord 10 1002 none none (some noPairs)],
    by decide, ?_, ?_, ?_⟩
  · intro m hm
    have hu0 : ValidUtf8 [] := ⟨[], rfl⟩
    have hu2 : ValidUtf8 [0, 0] := ⟨['\x00', '\x00'], by decide⟩
    simp only [sampleBatch, Slice.elems, Option.getD_some, List.cons_append, List.nil_append, List.mem_cons,
      List.not_mem_nil, or_false] at hm
    rcases hm with rfl | rfl | rfl
    · refine ⟨rfl, by decide, by decide, ?_⟩
      intro c kv hkv
      simp only [pairsOf, sampleRecord, pairsHeader, List.mem_cons, List.not_mem_nil, or_false] at hkv
      rcases hkv with rfl | rfl
      · exact ⟨hu0, hu0, by decide, by decide⟩
      · exact ⟨hu2, hu0, by decide, by decide⟩
    · exact ⟨rfl, by decide, by decide, by simp [pairsOf, sampleRecord, noPairs]⟩
    · exact ⟨rfl, by decide, by decide, by simp [pairsOf, sampleRecord, noPairs]⟩
  · decide +kernel
  · decide +kernel

/-- No reader of any kind gets even the number of records back. -/
theorem C43_unreadable : ¬∃ read : List Byte → Nat, ∀ call (r : Batch) version bs,
    (∀ m ∈ r.records.elems, GoodRecord m) → batchBytes call r version = some bs → read bs = r.records.len := by
  rintro ⟨read, h⟩
  obtain ⟨r1, r2, hne, hg, hb, hs⟩ := C43_ambiguous
  obtain ⟨bs, hbs⟩ := Option.isSome_iff_exists.1 hs
  exact hne ((h 0 r1 2 bs (fun m hm => hg m (List.mem_append_left _ hm)) hbs).symm.trans
    (h 0 r2 2 bs (fun m hm => hg m (List.mem_append_right _ hm)) (hb ▸ hbs)))

/-- A batch as in `C43_partial`, with a key, a value and a header. -/
example : batchBytes 0 (sampleBatch [sampleRecord 12 1001 (some [1]) (some [2, 3])
      (some (pairsHeader [([107], [118])]))]) 2 =
    some (fixedBytes (sampleBatch []) ++ [0, 0, 2, 0, 2, 1, 4, 2, 3, 2, 107, 2, 118]) := by
  decide +kernel

/-! ## C44: MapHeader -/

/-- A map as programs build it. -/
inductive Built : MapHeader → Prop where
  | empty : Built ⟨[]⟩
  | set {m : MapHeader} (k v : GoString) : Built m → Built (m.set k v)
  | delete {m : MapHeader} (k : GoString) : Built m → Built (m.delete k)

theorem built_nodup {m : MapHeader} (h : Built m) : (m.entries.map Prod.fst).Nodup := by
  have hf : ∀ (l : List (GoString × GoString)) (p : GoString × GoString → Bool),
      (l.map Prod.fst).Nodup → ((l.filter p).map Prod.fst).Nodup := fun l p h =>
    h.sublist (List.Sublist.map _ List.filter_sublist)
  induction h with
  | empty => simp
  | set k v _ ih =>
    rw [MapHeader.set, List.map_append, List.nodup_append]
    refine ⟨hf _ _ ih, by simp, ?_⟩
    intro a ha b hb
    simp only [List.map_cons, List.map_nil, List.mem_singleton] at hb
    subst hb
    rw [List.mem_map] at ha
    obtain ⟨e, he, rfl⟩ := ha
    rw [List.mem_filter] at he
    simpa using he.2
  | delete k _ ih => exact hf _ _ ih

theorem get_mem {l : List (GoString × GoString)} (h : (l.map Prod.fst).Nodup) (k v : GoString) :
    l.find? (fun e => e.1 = k) = some (k, v) ↔ (k, v) ∈ l := by
  induction l with
  | nil => simp
  | cons x l ih =>
    rw [List.map_cons, List.nodup_cons] at h
    rw [List.find?_cons]
    by_cases hx : x.1 = k
    · simp only [hx, decide_true, Option.some.injEq, List.mem_cons]
      constructor
      · intro h; exact Or.inl h.symm
      · rintro (h' | h')
        · exact h'.symm
        · exact absurd (List.mem_map_of_mem (f := Prod.fst) h') (by rw [← hx] at *; exact h.1)
    · simp only [hx, decide_false, List.mem_cons]
      rw [ih h.2]
      constructor
      · exact Or.inr
      · rintro (h' | h')
        · rw [← h'] at hx; exact absurd rfl hx
        · exact h'

/-- `Range` passes to its argument exactly the pairs `Get` finds, and no key twice, in whatever order
it visits the map. -/
theorem C44_range {m : MapHeader} (hm : Built m) {calls : List (GoString × GoString)} (hr : m.Ranges calls) :
    (∀ k v, (k, v) ∈ calls ↔ m.get k = (v, true)) ∧ (calls.map Prod.fst).Nodup := by
  have hn := built_nodup hm
  refine ⟨fun k v => ?_, (hr.map Prod.fst).nodup_iff.2 hn⟩
  rw [hr.mem_iff, ← get_mem hn, MapHeader.get]
  constructor
  · intro h; rw [h]
  · intro h
    split at h
    · rename_i e he
      rw [he]
      have : e.1 = k := by simpa using List.find?_some he
      rw [Prod.mk.injEq] at h
      rw [← this, ← h.1]
    · simp at h

/-- `Get` finds what was last set, and nothing else. -/
theorem C44_get (m : MapHeader) (k k' v : GoString) :
    (m.set k v).get k = (v, true) ∧ (k' ≠ k → (m.set k v).get k' = m.get k') ∧
    (m.delete k).get k = ([], false) ∧ (k' ≠ k → (m.delete k).get k' = m.get k') := by
  have hnone : (m.entries.filter (fun e => e.1 ≠ k)).find? (fun e => e.1 = k) = none := by
    rw [List.find?_eq_none]
    intro x hx
    rw [List.mem_filter] at hx
    simpa using hx.2
  have hother : k' ≠ k → (m.entries.filter (fun e => e.1 ≠ k)).find? (fun e => e.1 = k') =
      m.entries.find? (fun e => e.1 = k') := by
    intro h
    rw [List.find?_filter]
    congr 1
    funext e
    by_cases he : e.1 = k'
    · simp [he, h]
    · simp [he]
  refine ⟨?_, ?_, ?_, ?_⟩
  · simp only [MapHeader.get, MapHeader.set, List.find?_append, hnone, Option.none_or]
    simp
  · intro h
    simp only [MapHeader.get, MapHeader.set, List.find?_append, hother h]
    have : [(k, v)].find? (fun e => e.1 = k') = none := by
      simp [Ne.symm h]
    rw [this, Option.or_none]
  · simp only [MapHeader.get, MapHeader.delete, hnone]
  · intro h
    simp only [MapHeader.get, MapHeader.delete, hother h]

example : ((((⟨[]⟩ : MapHeader).set ([97]) ([49])).set ([98]) ([50])).set
    ([97]) ([51])).get ([97]) = ([51], true) := by decide

end Kafka.Props
