import Verif.RecordBatch.FormatLemmas
import Verif.Props.RecordBatch
/-!
C72: a record batch is written in the documented format (message format 2), so that a broker reads what was meant.
-/
namespace Kafka.Props

open Kafka Kafka.Record

/-- What is meant by a message in a batch with the given base offset and first timestamp. -/
def meantRecord (call : Nat) (m : Message) (base first : Int64) : Format.Rec :=
  { attributes := 0, timestampDelta := (m.unix - first).toInt, offsetDelta := (m.offset - base).toInt,
    key := m.key, value := m.value, headers := (pairsOf call m).map fun kv => (kv.1, some kv.2) }

def meantRecords (base first : Int64) : Nat → List Message → List Format.Rec
  | _, [] => []
  | call, m :: ms => meantRecord call m base first :: meantRecords base first (call + 1) ms

/-- What is meant by a batch: its fields, and its records in order. -/
def meant (call : Nat) (r : Batch) : Format.Batch :=
  { baseOffset := r.baseOffset, partitionLeaderEpoch := r.partitionLeaderEpoch, attributes := r.attributes,
    lastOffsetDelta := r.lastOffsetDelta, baseTimestamp := r.firstTimestamp, maxTimestamp := r.maxTimestamp,
    producerId := r.producerId, producerEpoch := r.producerEpoch, baseSequence := r.baseSequence,
    records := meantRecords r.baseOffset r.firstTimestamp call r.records.elems }

/-- The full claim: with the length and the checksum as documented, a reader of the format reads what was meant. -/
def C72_statement (call : Nat) (r : Batch) (version : Int16) : Prop :=
  r.batchLength = (meant call r).batchLength → r.crc = (meant call r).crc →
    ∃ bs, batchBytes call r version = some bs ∧ Format.read bs = some (meant call r)

/-- The format can be read: what it says to write for a batch is read as that batch. -/
theorem format_reads (b : Format.Batch) (h : b.Valid) : Format.read b.bytes = some b := Format.read_bytes b h

theorem batch_written {call : Nat} {r : Batch} {version : Int16} {bs : List Byte} (h : batchBytes call r version = some bs) :
    bs = fixedBytes r ++ recordsBytes r.firstTimestamp call r.records.elems := by
  have hh : ∀ m ∈ r.records.elems, m.header.isSome := by
    intro m hm
    cases hd : m.header with
    | some _ => rfl
    | none =>
      have := (C43_panics call r version (newEncoder fun _ => none)).2 ⟨m, hm, hd⟩
      rw [batchBytes, this] at h
      cases h
  obtain ⟨e, h1, h2, h3⟩ := C43_layout call r version hh (newEncoder fun _ => none) (by constructor <;> simp [newEncoder])
  rw [batchBytes, h1] at h
  simp only [Option.map_some, Option.some.injEq] at h
  rw [← h, h3]
  rfl

theorem vint_small {n : Nat} (h : n < 2 ^ 62) : Wire.varInt (Int64.ofNat n) = Format.vint n := by
  unfold Wire.varInt Format.vint
  rw [Int64.toInt_ofNat_of_lt (by omega)]

theorem nullable_length {s : Slice Byte} (h : s.len < 2 ^ 62) :
    (Format.nullable s).length = (Wire.varBytes s).length := by
  cases s with
  | none =>
    have e : Wire.varBytes none = Wire.base128 0 := List.append_nil _
    rw [e]
    show (Wire.base128 1).length = (Wire.base128 0).length
    rw [Format.base128_small (by omega), Format.base128_small (by omega)]
  | some l =>
    simp only [Format.nullable, Wire.varBytes, Format.counted]
    rw [vint_small h]
    rfl

theorem headers_length {l : List (GoString × GoString)}
    (h : ∀ kv ∈ l, ValidUtf8 kv.1 ∧ ValidUtf8 kv.2 ∧ kv.1.length < 2 ^ 62 ∧ kv.2.length < 2 ^ 62) :
    ((l.map fun kv => (kv.1, some kv.2)).flatMap Format.headerBytes) = l.flatMap pairBytes := by
  induction l with
  | nil => rfl
  | cons x l ih =>
    obtain ⟨h1, h2, h3, h4⟩ := h x (by simp)
    rw [List.map_cons, List.flatMap_cons, List.flatMap_cons, ih fun kv hk => h kv (by simp [hk])]
    congr 1
    unfold Format.headerBytes pairBytes Format.nullable Format.counted
    rw [sanitize_valid h1, sanitize_valid h2, vint_small h3, vint_small h4]

/-- What follows the length of a record is as documented for a record at the base offset of its batch, with key and
value, but for the number of headers: without headers only that is missing.  Missing: the length, other offsets, nil keys and
values (which are documented as null and written as empty), the number of headers. -/
theorem C72_record_partial (call : Nat) (m : Message) (version : Int16) (base first : Int64) (h : GoodRecord m)
    (ho : m.offset = base) (hk : m.key.isSome) (hv : m.value.isSome) (e : Encoder) (he : Reliable e) :
    ∃ e' front, encodeMessage call m version first e = some e' ∧ e'.err = none ∧
      e'.out = e.out ++ (Wire.varInt 0 ++ (front ++ (pairsOf call m).flatMap pairBytes)) ∧
      (meantRecord call m base first).body =
        front ++ (Format.vint (pairsOf call m).length ++ (pairsOf call m).flatMap pairBytes) := by
  obtain ⟨e', h1, h2, h3⟩ := pours_message (call := call) (version := version) (first := first) h.header e he
  refine ⟨e', Wire.int8 0 ++ (Wire.varInt (m.unix - first) ++ (Wire.varInt 0 ++ (Wire.varBytes m.key ++ Wire.varBytes m.value))),
    h1, h2.1, by rw [h3]; simp [recordBytes], ?_⟩
  have e : ∀ s : Slice Byte, s.isSome → s.len < 2 ^ 62 → Format.nullable s = Wire.varBytes s := by
    intro s hs hl
    cases s with
    | none => cases hs
    | some l =>
      simp only [Format.nullable, Wire.varBytes, Format.counted]
      rw [vint_small hl]
      rfl
  unfold Format.Rec.body meantRecord
  dsimp only
  rw [headers_length (h.pairs call), e _ hk h.key, e _ hv h.value, ho, Int64.sub_self, List.length_map]
  simp only [List.append_assoc]
  rfl

theorem record_longer (call : Nat) (m : Message) (base first : Int64) (h : GoodRecord m) :
    (recordBytes (pairsOf call m) m first).length ≤ (meantRecord call m base first).bytes.length := by
  have h1 : 0 < (Format.vint ((meantRecord call m base first).body.length : Int)).length := Format.base128_pos _
  have h2 : 0 < (Format.vint (m.offset - base).toInt).length := Format.base128_pos _
  have h3 : 0 < (Format.vint ((pairsOf call m).length : Int)).length := Format.base128_pos _
  have h4 : (Wire.varInt 0).length = 1 := Format.base128_small (by decide)
  have e : (meantRecord call m base first).body.length = (Wire.int8 0).length + ((Wire.varInt (m.unix - first)).length +
      ((Format.vint (m.offset - base).toInt).length + ((Wire.varBytes m.key).length + ((Wire.varBytes m.value).length +
      ((Format.vint ((pairsOf call m).length : Int)).length + ((pairsOf call m).flatMap pairBytes).length))))) := by
    unfold Format.Rec.body meantRecord
    dsimp only
    rw [headers_length (h.pairs call), List.length_map]
    simp only [List.length_append, nullable_length h.key, nullable_length h.value]
    rfl
  unfold Format.Rec.bytes Format.counted recordBytes
  simp only [List.length_append] at *
  omega

theorem records_longer (base first : Int64) (ms : List Message) (h : ∀ m ∈ ms, GoodRecord m) : ∀ call,
    (recordsBytes first call ms).length ≤ ((meantRecords base first call ms).flatMap Format.Rec.bytes).length := by
  induction ms with
  | nil => intro call; simp [recordsBytes, meantRecords]
  | cons m ms ih =>
    intro call
    have h1 := record_longer call m base first (h m (by simp))
    have h2 := ih (fun x hx => h x (by simp [hx])) (call + 1)
    simp only [recordsBytes, meantRecords, List.flatMap_cons, List.length_append]
    omega

/-- No batch at all is read as what was meant, whatever the caller put into it: the number of records is not
written. -/
theorem C72_fails (call : Nat) (r : Batch) (version : Int16) (h : ∀ m ∈ r.records.elems, GoodRecord m) (bs : List Byte)
    (hb : batchBytes call r version = some bs) : Format.read bs ≠ some (meant call r) := by
  intro hr
  have h1 := Format.read_length hr
  rw [batch_written hb] at h1
  have h2 := records_longer r.baseOffset r.firstTimestamp r.records.elems h call
  rw [List.length_append, fixed_length] at h1
  have h3 : (meant call r).records = meantRecords r.baseOffset r.firstTimestamp call r.records.elems := rfl
  rw [h3] at h1
  omega

/-- The fixed part is as documented, if the caller has put the length and the checksum into the batch.  Missing: what
follows it (`C72_fails`). -/
theorem C72_partial (call : Nat) (r : Batch) (version : Int16) (bs : List Byte) (hb : batchBytes call r version = some bs)
    (hl : r.batchLength = (meant call r).batchLength) (hc : r.crc = (meant call r).crc) :
    bs.take 57 = (meant call r).bytes.take 57 := by
  have e : (meant call r).bytes = fixedBytes r ++ (Wire.int32 (Int32.ofNat (meant call r).records.length) ++
      (meant call r).records.flatMap Format.Rec.bytes) := by
    unfold Format.Batch.bytes Format.Batch.covered Format.Batch.middle fixedBytes
    rw [hl, hc]
    simp only [List.append_assoc]
    rfl
  rw [batch_written hb, e, List.take_append_of_le_length (by rw [fixed_length]; omega),
    List.take_append_of_le_length (by rw [fixed_length]; omega)]

theorem fixed_run (r : Batch) (t : List Byte) :
    Format.batch (fixedBytes r ++ t) =
      (if r.batchLength.toInt = 45 + t.length ∧ r.crc.toInt = (Format.crc32c ((fixedBytes r).drop 21 ++ t)).toInt then
        (do
          let count ← Format.fixed 4
          Format.demand (0 ≤ count)
          let records ← Format.times Format.record count.toNat
          pure ⟨r.baseOffset, r.partitionLeaderEpoch, r.attributes, r.lastOffsetDelta, r.firstTimestamp, r.maxTimestamp,
            r.producerId, r.producerEpoch, r.baseSequence, records⟩ : Format.R Format.Batch) t
      else none) := by
  have n8 : ∀ i, (Wire.int8 i).length = 1 := fun i => by simp [Wire.int8, Wire.bigEndian]
  have n16 : ∀ i, (Wire.int16 i).length = 2 := fun i => by simp [Wire.int16, Wire.bigEndian]
  have n32 : ∀ i, (Wire.int32 i).length = 4 := fun i => by simp [Wire.int32, Wire.bigEndian]
  have n64 : ∀ i, (Wire.int64 i).length = 8 := fun i => by simp [Wire.int64, Wire.bigEndian]
  have ed : (fixedBytes r).drop 21 = Wire.int16 r.attributes ++ (Wire.int32 r.lastOffsetDelta ++
    (Wire.int64 r.firstTimestamp ++ (Wire.int64 r.maxTimestamp ++ (Wire.int64 r.producerId ++
    (Wire.int16 r.producerEpoch ++ Wire.int32 r.baseSequence))))) := by
    have e : fixedBytes r = (Wire.int64 r.baseOffset ++ (Wire.int32 r.batchLength ++ (Wire.int32 r.partitionLeaderEpoch ++
        (Wire.int8 2 ++ Wire.int32 r.crc)))) ++ (Wire.int16 r.attributes ++ (Wire.int32 r.lastOffsetDelta ++
        (Wire.int64 r.firstTimestamp ++ (Wire.int64 r.maxTimestamp ++ (Wire.int64 r.producerId ++
        (Wire.int16 r.producerEpoch ++ Wire.int32 r.baseSequence)))))) := by
      simp only [fixedBytes, List.append_assoc]
    rw [e, List.drop_left' (by simp only [List.length_append, n8, n32, n64])]
  unfold Format.batch
  rw [ed]
  unfold fixedBytes
  simp only [List.append_assoc]
  rw [(Format.gets_int64 _).run, (Format.gets_int32 _).run, Format.get_run]
  by_cases hl : r.batchLength.toInt = 45 + t.length
  · rw [Format.demand_run (by rw [hl]; simp only [List.length_append, n8, n16, n32, n64]; omega),
      (Format.gets_int32 _).run, (Format.gets_int8 _).run, Format.demand_run (by decide), (Format.gets_int32 _).run,
      Format.get_run]
    by_cases hc : r.crc.toInt = (Format.crc32c (Wire.int16 r.attributes ++ (Wire.int32 r.lastOffsetDelta ++
        (Wire.int64 r.firstTimestamp ++ (Wire.int64 r.maxTimestamp ++ (Wire.int64 r.producerId ++
        (Wire.int16 r.producerEpoch ++ (Wire.int32 r.baseSequence ++ t)))))))).toInt
    · rw [Format.demand_run hc, if_pos ⟨hl, hc⟩]
      unfold Format.covered
      rw [(Format.gets_int16 _).run, (Format.gets_int32 _).run, (Format.gets_int64 _).run, (Format.gets_int64 _).run,
        (Format.gets_int64 _).run, (Format.gets_int16 _).run, (Format.gets_int32 _).run]
      simp
    · rw [if_neg (fun h => hc h.2), Format.bind_eq, Format.demand, if_neg hc]
      rfl
  · rw [if_neg (fun h => hl h.1), Format.bind_eq, Format.demand, if_neg]
    · rfl
    · intro h
      apply hl
      rw [h]
      simp only [List.length_append, n8, n16, n32, n64]
      omega

/-- What a broker that follows the format does with a batch without records, with a batch whose first record has the first
timestamp of the batch, and with one whose first record is 64 to 8191 units after it: it rejects it, whatever the length and the
checksum. -/
theorem C72_rejected (call : Nat) (r : Batch) (version : Int16) (bs : List Byte)
    (hb : batchBytes call r version = some bs)
    (h : ∀ m, r.records.elems.head? = some m → (m.unix - r.firstTimestamp).toInt = 0 ∨
      (64 ≤ (m.unix - r.firstTimestamp).toInt ∧ (m.unix - r.firstTimestamp).toInt ≤ 8191)) :
    Format.read bs = none := by
  rw [batch_written hb, Format.read, fixed_run]
  split
  · rename_i b hb
    exfalso
    split at hb
    · cases hl : r.records.elems with
      | nil =>
        rw [hl] at hb
        obtain ⟨_, _, h1, _⟩ := Format.bind_inv hb
        have := Format.fixed_inv h1
        simp [recordsBytes] at this
        omega
      | cons m ms =>
        rw [hl] at hb
        have hm := h m (by rw [hl]; rfl)
        simp only [recordsBytes, recordBytes, List.append_assoc] at hb
        generalize hd : (m.unix - r.firstTimestamp).toInt = δ at hm
        have z0 : Wire.varInt 0 = [0] := by
          show Wire.base128 0 = _
          rw [Wire.base128]; rfl
        have z8 : Wire.int8 0 = [0] := by decide
        have ed : Wire.varInt (m.unix - r.firstTimestamp) = Wire.base128 (Wire.zigzag δ) := by rw [← hd]; rfl
        rw [z0, z8, ed] at hb
        rcases hm with hm | hm
        · subst hm
          have e0 : Wire.base128 (Wire.zigzag 0) = [0] := z0
          rw [e0] at hb
          have g : Format.Gets (Format.fixed 4) [0, 0, 0, 0] 0 := Format.gets_int32 0
          rw [show ∀ x, ([0] : List Byte) ++ ([0] ++ ([0] ++ ([0] ++ x))) = [0, 0, 0, 0] ++ x from fun _ => rfl, g.run,
            Format.demand_run (by omega)] at hb
          obtain ⟨l, s, h1, h2⟩ := Format.bind_inv hb
          obtain ⟨_, h3⟩ := Format.pure_inv h1
          obtain ⟨_, h4⟩ := Format.pure_inv h2
          rw [← h3] at h4
          have := congrArg List.length h4
          have p1 : 0 < (Wire.varInt (Int64.ofNat m.key.len)).length := Format.base128_pos _
          simp only [Wire.varBytes, List.length_append, List.length_nil] at this
          omega
        · have hz : 128 ≤ Wire.zigzag δ ∧ Wire.zigzag δ < 128 * 128 := by
            unfold Wire.zigzag
            split <;> omega
          generalize Wire.zigzag δ = z at hz hb
          have e2 : Wire.base128 z = [BitVec.ofNat 8 (128 + z % 128), BitVec.ofNat 8 (z / 128)] := by
            rw [Wire.base128, dif_neg (by omega), Wire.base128, dif_pos (by omega)]
          rw [e2] at hb
          obtain ⟨n, s, h1, h2⟩ := Format.bind_inv hb
          obtain ⟨a, s', h3, h4⟩ := Format.bind_inv h1
          obtain ⟨h5, h6⟩ := Format.pure_inv h4
          subst h6
          simp only [Format.takes, List.cons_append, List.nil_append, List.length_cons] at h3
          rw [if_neg (by omega)] at h3
          simp only [List.take, List.drop, Option.some.injEq, Prod.mk.injEq] at h3
          obtain ⟨h7, h8⟩ := h3
          subst h7 h8
          have e1 : (BitVec.ofNat 8 (128 + z % 128)).toNat = 128 + z % 128 := by simp; omega
          have e3 : (BitVec.ofNat 8 (z / 128)).toNat = z / 128 := by simp; omega
          have hn : 0 < n.toNat := by
            rw [← h5]
            simp only [List.foldl, e1, e3]
            rw [if_pos (by simp; omega)]
            simp
            omega
          obtain ⟨_, h9⟩ := Format.demand_inv h2
          obtain ⟨l, s2, h10, _⟩ := Format.bind_inv h9
          obtain ⟨k, hk⟩ := Nat.exists_eq_succ_of_ne_zero (by omega : n.toNat ≠ 0)
          rw [hk] at h10
          obtain ⟨x, s3, h11, _⟩ := Format.bind_inv h10
          obtain ⟨c, s4, h12, h13⟩ := Format.bind_inv h11
          obtain ⟨i, s5, h14, h15⟩ := Format.bind_inv h12
          have g : Format.Gets Format.varint [0] 0 := by
            have := Format.gets_vint 0
            rwa [show Format.vint 0 = [0] from z0] at this
          rw [show ∀ x : List Byte, (0 : Byte) :: x = [0] ++ x from fun _ => rfl, g] at h14
          cases h14
          obtain ⟨_, h16⟩ := Format.demand_inv h15
          obtain ⟨h17, _⟩ := Format.takes_inv h16
          have : c = [] := List.length_eq_zero_iff.1 h17
          subst this
          cases h13
    · cases hb
  · rfl

/-- A batch as in `C72_rejected` and `C72_fails`: its first record has the first timestamp. -/
example : ∀ m, (sampleBatch [sampleRecord 10 1000 (some [1]) (some [2, 3]) (some (pairsHeader [([107], [118])]))]).records.elems.head? = some m →
    (m.unix - (sampleBatch []).firstTimestamp).toInt = 0 := by
  intro m hm
  cases hm
  decide

/-- What the format says to write for it, and what is written. -/
example : (meant 0 (sampleBatch [sampleRecord 10 1000 (some [1]) (some [2, 3]) (some (pairsHeader [([107], [118])]))])).bytes.drop 57 =
      [0, 0, 0, 1, 26, 0, 0, 0, 2, 1, 4, 2, 3, 2, 2, 107, 2, 118] ∧
    (batchBytes 0 (sampleBatch [sampleRecord 10 1000 (some [1]) (some [2, 3]) (some (pairsHeader [([107], [118])]))]) 2).map (·.drop 57) =
      some [0, 0, 0, 0, 2, 1, 4, 2, 3, 2, 107, 2, 118] := by
  decide +kernel

end Kafka.Props
