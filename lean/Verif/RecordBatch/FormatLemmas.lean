import Verif.RecordBatch.Format
/-!
The reader of the format reads what the writer of the format writes.
-/
namespace Kafka.Record.Format

open Kafka

/-- `p` reads `bs`, wherever it stands, as `a`. -/
def Gets {α : Type} (p : R α) (bs : List Byte) (a : α) : Prop := ∀ t, p (bs ++ t) = some (a, t)

theorem Gets.pure {α : Type} (a : α) : Gets (pure a) [] a := fun _ => rfl

theorem bind_eq {α β : Type} (p : R α) (q : α → R β) (bs : List Byte) :
    (p >>= q) bs = (p bs).bind fun x => q x.1 x.2 := rfl

theorem Gets.bind {α β : Type} {p : R α} {q : α → R β} {as bs : List Byte} {a : α} {b : β}
    (h1 : Gets p as a) (h2 : Gets (q a) bs b) : Gets (p >>= q) (as ++ bs) b := fun t => by
  rw [bind_eq, List.append_assoc, h1 (bs ++ t)]
  exact h2 t

theorem Gets.last {α β : Type} {p : R α} {q : α → β} {as : List Byte} {a : α}
    (h1 : Gets p as a) : Gets (p >>= fun x => Pure.pure (q x)) as (q a) := by
  have := h1.bind (q := fun x => Pure.pure (q x)) (Gets.pure (q a))
  rwa [List.append_nil] at this

theorem Gets.demand {β : Type} {c : Prop} [Decidable c] {q : R β} {bs : List Byte} {b : β} (hc : c)
    (h : Gets q bs b) : Gets (demand c >>= fun _ => q) bs b := fun t => by
  rw [bind_eq, Format.demand, if_pos hc]
  exact h t

theorem gets_takes {n : Nat} {bs : List Byte} (h : bs.length = n) : Gets (takes n) bs bs := fun t => by
  subst h
  simp [takes]

theorem gets_base128 (n : Nat) : Gets base128 (Wire.base128 n) n := by
  induction n using Nat.strongRecOn with
  | ind n ih =>
    intro t
    rw [Wire.base128]
    split
    · rename_i h
      have : (BitVec.ofNat 8 n).toNat = n := by simp; omega
      simp [base128, this, h]
    · rename_i h
      have e : (BitVec.ofNat 8 (128 + n % 128)).toNat = 128 + n % 128 := by simp; omega
      rw [List.cons_append, base128, e, if_neg (by omega), ih (n / 128) (by omega) t]
      simp
      omega

theorem gets_vint (i : Int) : Gets varint (vint i) i := by
  have h := (gets_base128 (Wire.zigzag i)).last (q := fun n => if n % 2 = 0 then ((n / 2 : Nat) : Int) else -(((n + 1) / 2 : Nat) : Int))
  have e : (if Wire.zigzag i % 2 = 0 then ((Wire.zigzag i / 2 : Nat) : Int) else -(((Wire.zigzag i + 1) / 2 : Nat) : Int)) = i := by
    unfold Wire.zigzag
    repeat' split
    all_goals omega
  rw [e] at h
  exact h

theorem gets_counted (bs : List Byte) : Gets chunk (counted bs) bs :=
  (gets_vint _).bind (Gets.demand (by omega) (gets_takes (by simp)))

theorem gets_nullable (x : Option (List Byte)) : Gets nullableChunk (nullable x) x := by
  cases x with
  | none =>
    have h := (gets_vint (-1)).bind (q := fun n : Int => if n = -1 then (pure none : R (Option (List Byte))) else do
      demand (0 ≤ n)
      let bs ← takes n.toNat
      pure (some bs)) (bs := []) (b := none) (by rw [if_pos rfl]; exact Gets.pure none)
    rw [List.append_nil] at h
    exact h
  | some bs =>
    refine (gets_vint bs.length).bind ?_
    rw [if_neg (by omega)]
    exact Gets.demand (by omega) ((gets_takes (by simp)).last)

theorem gets_header (h : List Byte × Option (List Byte)) : Gets header (headerBytes h) h :=
  (gets_counted h.1).bind ((gets_nullable h.2).last)

theorem gets_times {α : Type} {p : R α} {w : α → List Byte} (l : List α) (h : ∀ x ∈ l, Gets p (w x) x) :
    Gets (times p l.length) (l.flatMap w) l := by
  induction l with
  | nil => exact Gets.pure []
  | cons x l ih => exact (h x (by simp)).bind ((ih fun y hy => h y (by simp [hy])).last)

theorem bigEndian_succ (w : Nat) (v : Int) :
    Wire.bigEndian (w + 1) v = BitVec.ofInt 8 (v / 256 ^ w) :: Wire.bigEndian w v := by
  simp [Wire.bigEndian, List.range_succ]

theorem foldl_unsigned (bs : List Byte) : ∀ n : Nat,
    bs.foldl (fun n b => 256 * n + b.toNat) n = n * 256 ^ bs.length + bs.foldl (fun n b => 256 * n + b.toNat) 0 := by
  induction bs with
  | nil => intro n; simp
  | cons b bs ih =>
    intro n
    rw [List.foldl_cons, List.foldl_cons, ih, ih (256 * 0 + b.toNat), List.length_cons, Nat.pow_succ, Nat.add_mul,
      Nat.add_mul]
    simp only [Nat.mul_zero, Nat.zero_mul, Nat.zero_add, Nat.add_assoc]
    congr 1
    rw [Nat.mul_comm 256 n, Nat.mul_assoc, Nat.mul_comm 256]

theorem unsigned_bigEndian (w : Nat) (v : Int) :
    ((Wire.bigEndian w v).foldl (fun n b => 256 * n + b.toNat) 0 : Nat) = v % 256 ^ w := by
  induction w with
  | zero => simp [Wire.bigEndian, Int.emod_one]
  | succ w ih =>
    rw [bigEndian_succ, List.foldl_cons, foldl_unsigned, Int.natCast_add, ih]
    have hl : (Wire.bigEndian w v).length = w := by simp [Wire.bigEndian]
    rw [hl]
    have hb : (((256 * 0 + (BitVec.ofInt 8 (v / 256 ^ w)).toNat : Nat)) : Int) = v / 256 ^ w % 256 := by
      rw [BitVec.toNat_ofInt]
      simp only [Nat.mul_zero, Nat.zero_add]
      have := Int.emod_nonneg (v / 256 ^ w) (b := ((2 ^ 8 : Nat) : Int)) (by decide)
      rw [Int.toNat_of_nonneg this]
      rfl
    rw [Int.natCast_mul, hb, Int.natCast_pow]
    show _ * (256 : Int) ^ w + _ = _
    generalize hp : (256 : Int) ^ w = p
    have h0 : (0 : Int) < p := by rw [← hp]; exact Int.pow_pos (by decide)
    have hpp : (256 : Int) ^ (w + 1) = p * 256 := by rw [Int.pow_succ, hp]
    rw [hpp, Int.emod_def v (p * 256), Int.emod_def v p, Int.emod_def (v / p) 256, ← Int.ediv_ediv_of_nonneg (Int.le_of_lt h0)]
    generalize v / p = a
    generalize a / 256 = c
    rw [Int.sub_mul, Int.mul_assoc p 256 c, Int.mul_comm (256 * c) p, Int.mul_comm a p]
    omega

theorem gets_fixed {w : Nat} {v : Int} (h1 : -(256 ^ w : Nat) ≤ 2 * v) (h2 : 2 * v < (256 ^ w : Nat)) :
    Gets (fixed w) (Wire.bigEndian w v) v := by
  have h := (gets_takes (n := w) (bs := Wire.bigEndian w v) (by simp [Wire.bigEndian])).last
    (q := fun bs => let u : Nat := bs.foldl (fun n b => 256 * n + b.toNat) 0
      ((if 2 * u < 256 ^ w then u else u - (256 ^ w : Nat)) : Int))
  have hu := unsigned_bigEndian w v
  have e : (let u : Nat := (Wire.bigEndian w v).foldl (fun n b => 256 * n + b.toNat) 0
      ((if 2 * u < 256 ^ w then u else u - (256 ^ w : Nat)) : Int)) = v := by
    dsimp only
    generalize (Wire.bigEndian w v).foldl (fun n b => 256 * n + b.toNat) 0 = u at *
    have hc : ((256 : Int) ^ w) = ((256 ^ w : Nat) : Int) := by rw [Int.natCast_pow]; rfl
    rw [hc] at hu
    generalize 256 ^ w = p at *
    rcases (by omega : v < 0 ∨ 0 ≤ v) with hv | hv
    · have : v % (p : Int) = v + p := by
        rw [← Int.add_emod_right]
        exact Int.emod_eq_of_lt (by omega) (by omega)
      rw [if_neg (by omega)]
      omega
    · have : v % (p : Int) = v := Int.emod_eq_of_lt hv (by omega)
      rw [if_pos (by omega)]
      omega
  rw [e] at h
  exact h

theorem gets_int8 (i : Int8) : Gets (fixed 1) (Wire.int8 i) i.toInt :=
  gets_fixed (by have := i.le_toInt; omega) (by have := i.toInt_lt; omega)
theorem gets_int16 (i : Int16) : Gets (fixed 2) (Wire.int16 i) i.toInt :=
  gets_fixed (by have := i.le_toInt; omega) (by have := i.toInt_lt; omega)
theorem gets_int32 (i : Int32) : Gets (fixed 4) (Wire.int32 i) i.toInt :=
  gets_fixed (by have := i.le_toInt; omega) (by have := i.toInt_lt; omega)
theorem gets_int64 (i : Int64) : Gets (fixed 8) (Wire.int64 i) i.toInt :=
  gets_fixed (by have := i.le_toInt; omega) (by have := i.toInt_lt; omega)

theorem gets_body (r : Rec) : Gets recBody r.body r := by
  have h : Gets recBody r.body ⟨Int8.ofInt r.attributes.toInt, r.timestampDelta, r.offsetDelta, r.key, r.value, r.headers⟩ :=
    (gets_int8 _).bind ((gets_vint _).bind ((gets_vint _).bind ((gets_nullable _).bind ((gets_nullable _).bind
      ((gets_vint _).bind (Gets.demand (by omega) ((gets_times r.headers fun x _ => gets_header x).last)))))))
  simpa using h

theorem gets_record (r : Rec) : Gets record r.bytes r := by
  have h := (gets_counted r.body).bind (q := fun bs => match recBody bs with
    | some (r, []) => (pure r : R Rec)
    | _ => failure) (bs := []) (b := r) (by
      have := gets_body r []
      rw [List.append_nil] at this
      rw [this]
      exact Gets.pure r)
  rw [List.append_nil] at h
  exact h

theorem Gets.run {α β : Type} {p : R α} {q : α → R β} {as : List Byte} {a : α} (h : Gets p as a) (t : List Byte) :
    (p >>= q) (as ++ t) = q a t := by
  rw [bind_eq, h t]
  rfl

theorem demand_run {β : Type} {c : Prop} [Decidable c] {q : Unit → R β} (hc : c) (bs : List Byte) :
    (demand c >>= q) bs = q () bs := by
  rw [bind_eq, Format.demand, if_pos hc]
  rfl

theorem get_run {β : Type} {q : List Byte → R β} (bs : List Byte) : ((get : R (List Byte)) >>= q) bs = q bs bs := rfl

theorem covered_run (b : Batch) (h : b.records.length < 2 ^ 31) :
    covered b.baseOffset.toInt b.partitionLeaderEpoch.toInt b.covered = some (b, []) := by
  have hc : (Int32.ofNat b.records.length).toInt = b.records.length := Int32.toInt_ofNat_of_lt h
  unfold covered Batch.covered Batch.middle
  simp only [List.append_assoc]
  rw [(gets_int16 _).run, (gets_int32 _).run, (gets_int64 _).run, (gets_int64 _).run, (gets_int64 _).run,
    (gets_int16 _).run, (gets_int32 _).run, (gets_int32 _).run, demand_run (by omega), hc]
  have := (gets_times b.records fun x _ => gets_record x) []
  rw [List.append_nil] at this
  rw [bind_eq, Int.toNat_natCast, this]
  simp
  rfl

/-- The reader reads what the writer writes. -/
theorem read_bytes (b : Batch) (h : b.Valid) : read b.bytes = some b := by
  have hl : b.batchLength.toInt = ((Wire.int32 b.partitionLeaderEpoch ++ (Wire.int8 2 ++ (Wire.int32 b.crc ++ b.covered))).length : Nat) := by
    unfold Batch.batchLength
    rw [Int32.toInt_ofNat_of_lt h.length]
    simp [Wire.int32, Wire.int8, Wire.bigEndian]
    omega
  have e : batch b.bytes = some (b, []) := by
    unfold batch Batch.bytes
    rw [(gets_int64 _).run, (gets_int32 _).run, get_run, demand_run hl, (gets_int32 _).run, (gets_int8 _).run,
      demand_run (by decide), (gets_int32 _).run, get_run, demand_run (show b.crc.toInt = (crc32c b.covered).toInt from rfl)]
    exact covered_run b h.count
  unfold read
  rw [e]

/-! ### What has been read is at least as long as it is written -/

/-- Whatever `p` reads, it takes at least as many bytes as are written for it. -/
def Least {α : Type} (p : R α) (w : α → Nat) : Prop := ∀ bs a t, p bs = some (a, t) → w a + t.length ≤ bs.length

theorem Least.pure {α : Type} (a : α) : Least (pure a : R α) fun _ => 0 := by
  intro bs b t h
  cases h
  simp

theorem bind_inv {α β : Type} {p : R α} {q : α → R β} {bs t : List Byte} {b : β} (h : (p >>= q) bs = some (b, t)) :
    ∃ a s, p bs = some (a, s) ∧ q a s = some (b, t) := by
  rw [bind_eq] at h
  cases hp : p bs with
  | none => rw [hp] at h; cases h
  | some x => rw [hp] at h; exact ⟨x.1, x.2, rfl, h⟩

theorem demand_inv {β : Type} {c : Prop} [Decidable c] {q : Unit → R β} {bs t : List Byte} {b : β}
    (h : (demand c >>= q) bs = some (b, t)) : c ∧ q () bs = some (b, t) := by
  by_cases hc : c
  · rw [demand_run hc] at h
    exact ⟨hc, h⟩
  · rw [bind_eq, demand, if_neg hc] at h
    cases h

theorem pure_inv {α : Type} {a b : α} {bs t : List Byte} (h : (Pure.pure a : R α) bs = some (b, t)) : a = b ∧ bs = t := by
  cases h
  exact ⟨rfl, rfl⟩

theorem takes_inv {n : Nat} {bs a t : List Byte} (h : takes n bs = some (a, t)) : a.length = n ∧ bs = a ++ t := by
  unfold takes at h
  split at h
  · cases h
  · cases h
    simp
    omega

theorem fixed_inv {w : Nat} {bs t : List Byte} {i : Int} (h : fixed w bs = some (i, t)) : bs.length = w + t.length := by
  obtain ⟨a, s, h1, h2⟩ := bind_inv h
  obtain ⟨h3, h4⟩ := takes_inv h1
  rw [h4, ← (pure_inv h2).2]
  simp [h3]

theorem base128_pos (n : Nat) : 0 < (Wire.base128 n).length := by
  rw [Wire.base128]
  split <;> simp

theorem base128_step (n : Nat) (h : 128 ≤ n) : (Wire.base128 n).length = 1 + (Wire.base128 (n / 128)).length := by
  rw [Wire.base128, dif_neg (by omega)]
  simp
  omega

theorem base128_small {n : Nat} (h : n < 128) : (Wire.base128 n).length = 1 := by
  rw [Wire.base128, dif_pos h]
  rfl

theorem base128_mono (n : Nat) : ∀ m, m ≤ n → (Wire.base128 m).length ≤ (Wire.base128 n).length := by
  induction n using Nat.strongRecOn with
  | ind n ih =>
    intro m h
    by_cases hm : m < 128
    · rw [base128_small hm]
      exact base128_pos n
    · rw [base128_step m (by omega), base128_step n (by omega)]
      have := ih (n / 128) (by omega) (m / 128) (by omega)
      omega

theorem least_base128 : Least base128 fun n => (Wire.base128 n).length := by
  intro bs
  induction bs with
  | nil => intro a t h; cases h
  | cons b bs ih =>
    intro a t h
    rw [base128] at h
    split at h
    · rename_i hb
      cases h
      simp [base128_small hb]
      omega
    · cases hr : base128 bs with
      | none => rw [hr] at h; cases h
      | some x =>
        rw [hr] at h
        have := ih x.1 x.2 hr
        simp only [Option.map_some, Option.some.injEq, Prod.mk.injEq] at h
        obtain ⟨h1, h2⟩ := h
        subst h2
        have hb : b.toNat < 256 := b.isLt
        show (Wire.base128 a).length + _ ≤ _
        have h3 : (Wire.base128 x.1).length + x.2.length ≤ bs.length := this
        by_cases ha : a < 128
        · rw [base128_small ha]
          have := base128_pos x.1
          simp only [List.length_cons]
          omega
        · rw [base128_step a (by omega)]
          have e : a / 128 = x.1 := by omega
          rw [e]
          simp only [List.length_cons]
          omega

theorem least_varint : Least varint fun i => (vint i).length := by
  intro bs i t h
  obtain ⟨n, s, h1, h2⟩ := bind_inv h
  obtain ⟨h3, h4⟩ := pure_inv h2
  subst h4
  have := least_base128 bs n s h1
  have e : Wire.zigzag i = n := by
    subst h3
    unfold Wire.zigzag
    repeat' split
    all_goals omega
  show (Wire.base128 (Wire.zigzag i)).length + _ ≤ _
  rw [e]
  exact this

theorem least_chunk : Least chunk fun bs => (counted bs).length := by
  intro bs a t h
  obtain ⟨n, s, h1, h2⟩ := bind_inv h
  obtain ⟨h3, h4⟩ := demand_inv h2
  obtain ⟨h5, h6⟩ := takes_inv h4
  have := least_varint bs n s h1
  have e : n = a.length := by omega
  subst e
  rw [h6] at this
  simp only [counted, List.length_append] at *
  omega

theorem least_nullable : Least nullableChunk fun x => (nullable x).length := by
  intro bs a t h
  obtain ⟨n, s, h1, h2⟩ := bind_inv h
  have := least_varint bs n s h1
  split at h2
  · rename_i hn
    obtain ⟨h3, h4⟩ := pure_inv h2
    subst h3 h4 hn
    exact this
  · obtain ⟨h3, h4⟩ := demand_inv h2
    obtain ⟨c, s', h5, h6⟩ := bind_inv h4
    obtain ⟨h7, h8⟩ := pure_inv h6
    obtain ⟨h9, h10⟩ := takes_inv h5
    subst h7 h8
    have e : n = c.length := by omega
    subst e
    rw [h10] at this
    simp only [nullable, counted, List.length_append] at *
    omega

theorem least_header : Least header fun h => (headerBytes h).length := by
  intro bs a t h
  obtain ⟨k, s, h1, h2⟩ := bind_inv h
  obtain ⟨v, s', h3, h4⟩ := bind_inv h2
  obtain ⟨h5, h6⟩ := pure_inv h4
  subst h5 h6
  have := least_chunk bs k s h1
  have := least_nullable s v s' h3
  simp only [headerBytes, List.length_append] at *
  omega

theorem least_times {α : Type} {p : R α} {w : α → List Byte} (h : Least p fun x => (w x).length) (n : Nat) :
    ∀ bs l t, times p n bs = some (l, t) → l.length = n ∧ (l.flatMap w).length + t.length ≤ bs.length := by
  induction n with
  | zero =>
    intro bs l t hl
    obtain ⟨h1, h2⟩ := pure_inv hl
    subst h1 h2
    simp
  | succ n ih =>
    intro bs l t hl
    obtain ⟨x, s, h1, h2⟩ := bind_inv hl
    obtain ⟨xs, s', h3, h4⟩ := bind_inv h2
    obtain ⟨h5, h6⟩ := pure_inv h4
    subst h5 h6
    have := h bs x s h1
    obtain ⟨h7, h8⟩ := ih s xs s' h3
    simp only [List.flatMap_cons, List.length_append, List.length_cons] at *
    omega

theorem least_body : Least recBody fun r => r.body.length := by
  intro bs r t h
  obtain ⟨_, _, h1, h⟩ := bind_inv h
  obtain ⟨_, _, h2, h⟩ := bind_inv h
  obtain ⟨_, _, h3, h⟩ := bind_inv h
  obtain ⟨_, _, h4, h⟩ := bind_inv h
  obtain ⟨_, _, h5, h⟩ := bind_inv h
  obtain ⟨n, _, h6, h⟩ := bind_inv h
  obtain ⟨h7, h⟩ := demand_inv h
  obtain ⟨l, _, h8, h⟩ := bind_inv h
  obtain ⟨h9, h10⟩ := pure_inv h
  subst h9 h10
  have a1 := fixed_inv h1
  have a2 := least_varint _ _ _ h2
  have a3 := least_varint _ _ _ h3
  have a4 := least_nullable _ _ _ h4
  have a5 := least_nullable _ _ _ h5
  have a6 := least_varint _ _ _ h6
  obtain ⟨a7, a8⟩ := least_times least_header _ _ _ _ h8
  have e : n = l.length := by omega
  subst e
  have b8 : ∀ i, (Wire.int8 i).length = 1 := fun i => by simp [Wire.int8, Wire.bigEndian]
  simp only [Rec.body, List.length_append, b8] at *
  omega

theorem counted_mono {as bs : List Byte} (h : as.length ≤ bs.length) : (counted as).length ≤ (counted bs).length := by
  have : (vint (as.length : Int)).length ≤ (vint (bs.length : Int)).length := by
    apply base128_mono
    unfold Wire.zigzag
    rw [if_neg (by omega), if_neg (by omega)]
    omega
  simp only [counted, List.length_append]
  omega

theorem least_record : Least record fun r => r.bytes.length := by
  intro bs r t h
  obtain ⟨c, s, h1, h2⟩ := bind_inv h
  have a1 : (counted c).length + s.length ≤ bs.length := least_chunk _ _ _ h1
  have h3 : recBody c = some (r, []) ∧ s = t := by
    cases hb : recBody c with
    | none => rw [hb] at h2; cases h2
    | some x =>
      obtain ⟨x, u⟩ := x
      rw [hb] at h2
      cases u with
      | nil => cases h2; exact ⟨rfl, rfl⟩
      | cons _ _ => cases h2
  obtain ⟨hb, h6⟩ := h3
  subst h6
  have := least_body _ _ _ hb
  have := counted_mono (as := r.body) (bs := c) (by simpa using this)
  show (counted r.body).length + _ ≤ _
  omega

/-- Bytes that are read as a batch are at least as many as are written for it. -/
theorem read_length {bs : List Byte} {b : Batch} (h : read bs = some b) :
    61 + (b.records.flatMap Rec.bytes).length ≤ bs.length := by
  unfold read at h
  split at h
  · rename_i x hb
    cases h
    obtain ⟨_, _, h1, h⟩ := bind_inv hb
    obtain ⟨_, _, h2, h⟩ := bind_inv h
    rw [get_run] at h
    obtain ⟨_, h⟩ := demand_inv h
    obtain ⟨_, _, h3, h⟩ := bind_inv h
    obtain ⟨_, _, h4, h⟩ := bind_inv h
    obtain ⟨_, h⟩ := demand_inv h
    obtain ⟨_, _, h5, h⟩ := bind_inv h
    rw [get_run] at h
    obtain ⟨_, h⟩ := demand_inv h
    obtain ⟨_, _, g1, h⟩ := bind_inv h
    obtain ⟨_, _, g2, h⟩ := bind_inv h
    obtain ⟨_, _, g3, h⟩ := bind_inv h
    obtain ⟨_, _, g4, h⟩ := bind_inv h
    obtain ⟨_, _, g5, h⟩ := bind_inv h
    obtain ⟨_, _, g6, h⟩ := bind_inv h
    obtain ⟨_, _, g7, h⟩ := bind_inv h
    obtain ⟨_, _, g8, h⟩ := bind_inv h
    obtain ⟨_, h⟩ := demand_inv h
    obtain ⟨l, _, g9, h⟩ := bind_inv h
    obtain ⟨k1, k2⟩ := pure_inv h
    subst k1 k2
    have := fixed_inv h1
    have := fixed_inv h2
    have := fixed_inv h3
    have := fixed_inv h4
    have := fixed_inv h5
    have := fixed_inv g1
    have := fixed_inv g2
    have := fixed_inv g3
    have := fixed_inv g4
    have := fixed_inv g5
    have := fixed_inv g6
    have := fixed_inv g7
    have := fixed_inv g8
    obtain ⟨_, k3⟩ := least_times least_record _ _ _ _ g9
    simp only [List.length_nil] at k3
    show 61 + (l.flatMap Rec.bytes).length ≤ _
    omega
  · cases h

end Kafka.Record.Format
