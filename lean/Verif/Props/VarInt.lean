import Verif.Props.Exact
/-!
Property C73: what `VarInt`, `VarBytes` and `VarString` do with any bytes at all.

The specification is `base128`, how groups of seven bits stand for a number, and `fromZigzag`, how numbers stand for
integers; both are arithmetic.
-/
namespace Kafka.Props

open Kafka

/-! ### Specification -/

/-- The number at the beginning of the bytes, seven bits a byte, the lowest first, the last byte below 128; and how many
bytes it has.  `none`: no byte is below 128. -/
def base128 : List Byte → Option (Nat × Nat)
  | [] => none
  | b :: rest =>
    if b.toNat < 128 then some (b.toNat, 1)
    else (base128 rest).map fun nk => (b.toNat - 128 + 128 * nk.1, nk.2 + 1)

/-- 0, -1, 1, -2, 2, … -/
def fromZigzag (n : Nat) : Int := if n % 2 = 0 then (n / 2 : Nat) else -((n / 2 : Nat) : Int) - 1

example : base128 [0xAC, 0x02, 0x55] = some (300, 2) ∧ base128 [0x80, 0x80] = none ∧ fromZigzag 300 = 150 ∧ fromZigzag 3 = -2 := by
  decide

/-- The varint fits: at most ten bytes and 64 bits. -/
def Fits (n k : Nat) : Prop := k ≤ 10 ∧ n < 2 ^ 64

instance (n k : Nat) : Decidable (Fits n k) := by unfold Fits; infer_instance

/-- The bytes a decoder looks at: from its position to the end of its buffer, whatever its declared length. -/
def ahead (d : Decoder) : List Byte := d.raw.drop d.offset.toNat

/-- The decoder at another position. -/
def at_ (d : Decoder) (p : Int) : Decoder := { d with offset := p }

/-- A read is orderly: it fails, or returns after moving on within the declared length. -/
def Orderly {α : Type} (d : Decoder) (r : Res α) : Prop :=
  (∃ a k, r = .ok a (d.skip k) ∧ 1 ≤ k ∧ k ≤ d.rest.length) ∨ ∃ e d', r = .err e d'

/-- The full claim. -/
def C73_statement : Prop :=
  ∀ d : Decoder, d.Valid → Orderly d (Dec.varInt d) ∧ Orderly d (Dec.varBytes d) ∧ Orderly d (Dec.varString d)

/-! ### Lemmas -/

theorem base128_pos {bs : List Byte} {n k : Nat} (h : base128 bs = some (n, k)) : 1 ≤ k ∧ k ≤ bs.length := by
  induction bs generalizing n k with
  | nil => simp [base128] at h
  | cons b bs ih =>
    rw [base128] at h
    split at h
    · simp only [Option.some.injEq, Prod.mk.injEq] at h
      simp; omega
    · obtain ⟨⟨n', k'⟩, h1, h2⟩ := Option.map_eq_some_iff.1 h
      simp only [Prod.mk.injEq] at h2
      have := ih h1
      simp; omega

/-- With fewer bytes than ten the number has fewer bits. -/
theorem base128_lt {bs : List Byte} {n k : Nat} (h : base128 bs = some (n, k)) : n < 2 ^ (7 * k) := by
  induction bs generalizing n k with
  | nil => simp [base128] at h
  | cons b bs ih =>
    rw [base128] at h
    split at h
    · simp only [Option.some.injEq, Prod.mk.injEq] at h
      obtain ⟨rfl, rfl⟩ := h
      omega
    · obtain ⟨⟨n', k'⟩, h1, h2⟩ := Option.map_eq_some_iff.1 h
      simp only [Prod.mk.injEq] at h2
      obtain ⟨rfl, rfl⟩ := h2
      have := ih h1
      have e : 2 ^ (7 * (k' + 1)) = 128 * 2 ^ (7 * k') := by rw [Nat.mul_add, Nat.pow_add, Nat.mul_comm]
      have := b.isLt
      omega

theorem base128_none {bs : List Byte} (h : base128 bs = none) : ∀ b ∈ bs, 0x80 ≤ b.toNat := by
  induction bs with
  | nil => simp
  | cons b bs ih =>
    rw [base128] at h
    split at h
    · simp at h
    · intro c hc
      rcases List.mem_cons.1 hc with rfl | hc
      · omega
      · exact ih (by simpa using h) c hc

theorem uvarintLoop_read (bs : List Byte) {n k : Nat} (h : base128 bs = some (n, k)) (x : BitVec 64) (i : Nat)
    (hx : x.toNat < 2 ^ (7 * i)) (hi : i + k ≤ 10) (hn : x.toNat + n * 2 ^ (7 * i) < 2 ^ 64) :
    uvarintLoop x i bs = (BitVec.ofNat 64 (x.toNat + n * 2 ^ (7 * i)), (i : Int) + k) := by
  induction bs generalizing n k x i with
  | nil => simp [base128] at h
  | cons b bs ih =>
    rw [base128] at h
    unfold uvarintLoop
    have hb := b.isLt
    split at h
    · rename_i hlt
      simp only [Option.some.injEq, Prod.mk.injEq] at h
      obtain ⟨rfl, rfl⟩ := h
      rw [if_pos hlt]
      have h9 : ¬ ((decide (i > 9) || (i == 9 && decide (b.toNat > 1))) = true) := by
        simp only [Bool.or_eq_true, decide_eq_true_eq, Bool.and_eq_true, beq_iff_eq, not_or, not_and]
        refine ⟨by omega, ?_⟩
        rintro rfl
        omega
      rw [if_neg h9]
      congr 1
      apply BitVec.eq_of_toNat_eq
      have hb' : (b.setWidth 64).toNat = b.toNat := by simp; omega
      rw [or_shift hx (by rw [hb']; exact hn), hb', BitVec.toNat_ofNat, Nat.mod_eq_of_lt hn]
    · rename_i hlt
      obtain ⟨⟨n', k'⟩, h1, h2⟩ := Option.map_eq_some_iff.1 h
      simp only [Prod.mk.injEq] at h2
      obtain ⟨rfl, rfl⟩ := h2
      rw [if_neg hlt]
      have hb7 : ((b &&& 0x7f#8).setWidth 64).toNat = b.toNat - 128 := by
        rw [BitVec.toNat_setWidth, BitVec.toNat_and]
        have : b.toNat &&& (127#8).toNat = b.toNat - 128 := by
          show b.toNat &&& (2 ^ 7 - 1) = _
          rw [Nat.and_two_pow_sub_one_eq_mod]; omega
        omega
      have e : 2 ^ (7 * (i + 1)) = 128 * 2 ^ (7 * i) := by
        rw [Nat.mul_add, Nat.pow_add, Nat.mul_comm]
      have hsum : x.toNat + (b.toNat - 128) * 2 ^ (7 * i) + n' * 2 ^ (7 * (i + 1)) =
          x.toNat + (b.toNat - 128 + 128 * n') * 2 ^ (7 * i) := by
        rw [e, Nat.add_mul, Nat.mul_comm 128 n', Nat.mul_assoc]; omega
      have hor := or_shift (x := x) (b := (b &&& 0x7f#8).setWidth 64) (i := i) hx (by rw [hb7]; omega)
      rw [hb7] at hor
      rw [ih h1 _ (i + 1) ?_ (by omega) ?_]
      · rw [hor, hsum]
        congr 1
        omega
      · rw [hor, e]
        have : (b.toNat - 128) * 2 ^ (7 * i) ≤ 127 * 2 ^ (7 * i) := Nat.mul_le_mul_right _ (by omega)
        omega
      · rw [hor]; omega

/-- Too many bytes, or too many bits. -/
theorem uvarintLoop_over (bs : List Byte) {n k : Nat} (h : base128 bs = some (n, k)) (x : BitVec 64) (i : Nat)
    (ho : 10 < i + k ∨ (i ≤ 9 ∧ 2 ^ 64 ≤ n * 2 ^ (7 * i))) : uvarintLoop x i bs = (0, -((i : Int) + k)) := by
  induction bs generalizing n k x i with
  | nil => simp [base128] at h
  | cons b bs ih =>
    rw [base128] at h
    unfold uvarintLoop
    have hb := b.isLt
    split at h
    · rename_i hlt
      simp only [Option.some.injEq, Prod.mk.injEq] at h
      obtain ⟨rfl, rfl⟩ := h
      rw [if_pos hlt, if_pos]
      · congr 1
      · simp only [Bool.or_eq_true, decide_eq_true_eq, Bool.and_eq_true, beq_iff_eq]
        rcases ho with ho | ⟨h9, ho⟩
        · omega
        · rcases Nat.lt_or_ge i 9 with hi | hi
          · have : b.toNat * 2 ^ (7 * i) ≤ 127 * 2 ^ (7 * 8) :=
              Nat.mul_le_mul (by omega) (Nat.pow_le_pow_right (by omega) (by omega))
            omega
          · have : i = 9 := by omega
            subst this
            refine .inr ⟨rfl, ?_⟩
            omega
    · rename_i hlt
      obtain ⟨⟨n', k'⟩, h1, h2⟩ := Option.map_eq_some_iff.1 h
      simp only [Prod.mk.injEq] at h2
      obtain ⟨rfl, rfl⟩ := h2
      have hk := base128_pos h1
      rw [if_neg hlt, ih h1 _ (i + 1)]
      · congr 1; omega
      · rcases ho with ho | ⟨h9, ho⟩
        · exact .inl (by omega)
        · rcases Nat.lt_or_ge i 9 with hi | hi
          · refine .inr ⟨by omega, ?_⟩
            have e : 2 ^ (7 * (i + 1)) = 128 * 2 ^ (7 * i) := by
              rw [Nat.mul_add, Nat.pow_add, Nat.mul_comm]
            rw [e, ← Nat.mul_assoc, Nat.mul_comm n' 128]
            have h64 : (2 : Nat) ^ 64 = 2 ^ (64 - 7 * i) * 2 ^ (7 * i) := by
              rw [← Nat.pow_add]; congr 1; omega
            have hc : 2 ^ (64 - 7 * i) ≤ b.toNat - 128 + 128 * n' := by
              rw [h64] at ho
              exact Nat.le_of_mul_le_mul_right ho (Nat.pow_pos (by omega))
            have hd : 2 ^ (64 - 7 * i) = 128 * 2 ^ (57 - 7 * i) := by
              rw [show 64 - 7 * i = 7 + (57 - 7 * i) by omega, Nat.pow_add]
            rw [h64]
            refine Nat.mul_le_mul_right _ ?_
            omega
          · exact .inl (by omega)

theorem toInt_of_unzig (n : Nat) (h : n < 2 ^ 64) :
    (Int64.ofBitVec (if BitVec.ofNat 64 n &&& 1 != 0 then ~~~(BitVec.ofNat 64 n >>> 1) else BitVec.ofNat 64 n >>> 1)).toInt =
      fromZigzag n := by
  have hn : (BitVec.ofNat 64 n).toNat = n := by rw [BitVec.toNat_ofNat, Nat.mod_eq_of_lt h]
  have h1 : (BitVec.ofNat 64 n &&& 1).toNat = n % 2 := by
    rw [BitVec.toNat_and, hn]
    exact Nat.and_two_pow_sub_one_eq_mod _ 1
  have hs : (BitVec.ofNat 64 n >>> 1).toNat = n / 2 := by
    rw [BitVec.toNat_ushiftRight, hn, Nat.shiftRight_eq_div_pow]
  unfold fromZigzag
  by_cases hp : n % 2 = 0
  · have h0 : (BitVec.ofNat 64 n &&& 1 != 0) = false := by
      rw [bne_eq_false_iff_eq]
      exact BitVec.eq_of_toNat_eq (by rw [h1, hp]; rfl)
    rw [h0, if_neg (by simp), if_pos hp]
    show (BitVec.ofNat 64 n >>> 1).toInt = _
    rw [BitVec.toInt_eq_toNat_cond, hs, if_pos (by omega)]
  · have h0 : (BitVec.ofNat 64 n &&& 1 != 0) = true := by
      rw [bne_iff_ne]
      intro hc
      rw [hc] at h1
      simp at h1; omega
    rw [h0, if_pos rfl, if_neg hp]
    show (~~~(BitVec.ofNat 64 n >>> 1)).toInt = _
    rw [BitVec.toInt_eq_toNat_cond, BitVec.toNat_not, hs, if_neg (by omega)]
    omega

theorem varint_read {bs : List Byte} {n k : Nat} (h : base128 bs = some (n, k)) :
    if Fits n k then (varint bs).2 = k ∧ (varint bs).1.toInt = fromZigzag n
    else varint bs = (0, -(k : Int)) := by
  unfold varint uvarint
  split
  · rename_i hf
    obtain ⟨hk, hn⟩ := hf
    rw [uvarintLoop_read bs h 0 0 (by simp) (by omega) (by simp; omega)]
    refine ⟨by simp, ?_⟩
    have e : (0 : BitVec 64).toNat + n * 2 ^ (7 * 0) = n := by simp
    simp only [e]
    exact toInt_of_unzig n hn
  · rename_i hf
    rw [uvarintLoop_over bs h 0 0 ?_]
    · simp
    · rcases Nat.lt_or_ge 10 k with hk | hk
      · exact .inl (by omega)
      · refine .inr ⟨by omega, ?_⟩
        simp only [Fits, not_and] at hf
        have := hf hk
        simp; omega

theorem ahead_slice {d : Decoder} (hd : d.Valid) : goSliceFrom d.raw d.offset = some (ahead d) := by
  have := hd.off_nonneg; have := hd.off_le; have := hd.len_le
  unfold goSliceFrom ahead
  rw [if_pos (by omega)]

theorem ahead_length {d : Decoder} (hd : d.Valid) : ((ahead d).length : Int) = d.raw.length - d.offset := by
  have := hd.off_nonneg; have := hd.off_le; have := hd.len_le
  unfold ahead
  rw [List.length_drop]; omega

/-! ### C73 -/

/-- `VarInt`, whatever the bytes: without a last byte it fails; a number that fits is returned and passed, also if its
last bytes are behind the declared length; for a number that does not fit it returns 0 and moves back. -/
theorem C73_varInt (d : Decoder) (hd : d.Valid) :
    match base128 (ahead d) with
    | none => Dec.varInt d = .err .shortBuffer (at_ d d.length)
    | some (n, k) =>
      if Fits n k then ∃ i : Int64, i.toInt = fromZigzag n ∧ Dec.varInt d = .ok i (at_ d (d.offset + k))
      else Dec.varInt d = .ok 0 (at_ d (d.offset - k)) := by
  have := hd.off_nonneg; have := hd.off_le; have := hd.len_le; have := hd.small
  have hl := ahead_length hd
  split
  · rename_i h
    have hz := varint_unterminated _ (base128_none h)
    unfold Dec.varInt
    rw [ahead_slice hd]
    simp only [hz, if_true]
    rfl
  · rename_i n k h
    obtain ⟨hk1, hk2⟩ := base128_pos h
    have hr := varint_read h
    unfold Dec.varInt
    rw [ahead_slice hd]
    split
    · rename_i hf
      rw [if_pos hf] at hr
      refine ⟨(varint (ahead d)).1, hr.2, ?_⟩
      simp only [hr.1]
      rw [if_neg (by omega), if_neg (by omega), wrap64_id (by omega) (by omega)]
      rfl
    · rename_i hf
      rw [if_neg hf] at hr
      have h10 : 10 ≤ k := by
        rcases Nat.lt_or_ge k 10 with h10 | h10
        · exact absurd ⟨by omega, Nat.lt_of_lt_of_le (base128_lt h)
            (Nat.pow_le_pow_right (by omega) (by omega) : 2 ^ (7 * k) ≤ 2 ^ 64)⟩ hf
        · exact h10
      simp only [hr]
      rw [if_neg (by omega), if_neg (by omega), wrap64_id (by omega) (by omega)]
      rfl

theorem fromZigzag_range {n : Nat} (h : n < 2 ^ 64) : -2 ^ 63 ≤ fromZigzag n ∧ fromZigzag n < 2 ^ 63 := by
  unfold fromZigzag; split <;> omega

theorem run_ok {α β : Type} {m : Dec α} {f : α → Dec β} {d d' : Decoder} {a : α} (h : m d = .ok a d') : (m >>= f) d = f a d' := by
  show Dec.bind m f d = _
  rw [Dec.bind, h]
theorem run_err {α β : Type} {m : Dec α} {f : α → Dec β} {d d' : Decoder} {e : DErr} (h : m d = .err e d') :
    (m >>= f) d = .err e d' := by
  show Dec.bind m f d = _
  rw [Dec.bind, h]
theorem run_panic {α β : Type} {m : Dec α} {f : α → Dec β} {d : Decoder} (h : m d = .panic) : (m >>= f) d = .panic := by
  show Dec.bind m f d = _
  rw [Dec.bind, h]

theorem remains_at {d : Decoder} {i : Int} (hl : 0 ≤ d.length) (hl' : d.length < 2 ^ 62) (ho : -2 ^ 62 ≤ d.offset)
    (ho' : d.offset < 2 ^ 62) :
    Dec.remains i d = if d.length < d.offset + i then .err .shortBuffer d else .ok () d := by
  unfold Dec.remains
  rw [wrap64_id (by omega) (by omega)]
  by_cases h : d.length < d.offset + i
  · rw [if_pos (by omega), if_pos h]
  · rw [if_neg (by omega), if_neg h]

theorem advance_at {d : Decoder} {i : Int} (h1 : -2 ^ 63 ≤ d.offset + i) (h2 : d.offset + i < 2 ^ 63) :
    Dec.advance i d = .ok () (at_ d (d.offset + i)) := by
  unfold Dec.advance
  rw [wrap64_id (by omega) (by omega)]
  rfl

theorem takeBytes_at {d : Decoder} {i : Int} (hs : d.raw.length < 2 ^ 62) (hl : 0 ≤ d.length) (hr : d.length ≤ d.raw.length)
    (ho : -2 ^ 62 ≤ d.offset) (ho' : d.offset ≤ d.raw.length) (hi : -2 ^ 63 ≤ d.offset + i) :
    Dec.takeBytes i d =
      if d.length < d.offset + i then .err .shortBuffer d
      else if i < 0 ∨ d.offset < 0 then .panic
      else .ok ((d.raw.drop d.offset.toNat).take i.toNat) (at_ d (d.offset + i)) := by
  have h := remains_at (i := i) hl (by omega) ho (by omega)
  unfold Dec.takeBytes
  by_cases h1 : d.length < d.offset + i
  · rw [if_pos h1] at h ⊢
    exact run_err h
  · rw [if_neg h1] at h ⊢
    rw [run_ok h]
    have hw : wrap64 (d.offset + i) = d.offset + i := wrap64_id (by omega) (by omega)
    by_cases h2 : i < 0 ∨ d.offset < 0
    · rw [if_pos h2]
      refine run_panic ?_
      unfold Dec.expr goSlice
      simp only [hw]
      rw [if_neg (by omega)]
    · rw [if_neg h2]
      have he : Dec.expr (fun d => goSlice d.raw d.offset (wrap64 (d.offset + i))) d =
          .ok ((d.raw.drop d.offset.toNat).take i.toNat) d := by
        unfold Dec.expr goSlice
        simp only [hw]
        rw [if_pos (by omega), show d.offset + i - d.offset = i by omega]
      rw [run_ok he, run_ok (advance_at (by omega) (by omega))]
      rfl

/-- `VarBytes`: a negative length is a slice with its ends exchanged, and panics; a length that does not fit 64 bits is 0,
at a position further back, which may be before the buffer. -/
theorem C73_varBytes (d : Decoder) (hd : d.Valid) :
    Dec.varBytes d = match base128 (ahead d) with
    | none => .err .shortBuffer (at_ d d.length)
    | some (n, k) =>
      if Fits n k then
        if d.length < d.offset + k + fromZigzag n then .err .shortBuffer (at_ d (d.offset + k))
        else if fromZigzag n < 0 then .panic
        else .ok (some (((ahead d).drop k).take (fromZigzag n).toNat)) (at_ d (d.offset + k + fromZigzag n))
      else if d.offset < k then .panic
      else .ok (some []) (at_ d (d.offset - k)) := by
  have := hd.off_nonneg; have := hd.off_le; have := hd.len_le; have := hd.small
  have hl := ahead_length hd
  have h := C73_varInt d hd
  unfold Dec.varBytes
  cases hb : base128 (ahead d) with
  | none =>
    rw [hb] at h
    exact run_err h
  | some nk =>
    obtain ⟨n, k⟩ := nk
    rw [hb] at h
    obtain ⟨hk1, hk2⟩ := base128_pos hb
    simp only at h ⊢
    by_cases hf : Fits n k
    · rw [if_pos hf] at h ⊢
      obtain ⟨i, hi, h⟩ := h
      obtain ⟨r1, r2⟩ := fromZigzag_range hf.2
      rw [run_ok h]
      have ht := takeBytes_at (d := at_ d (d.offset + k)) (i := i.toInt) hd.small (by simp only [at_]; omega) hd.len_le
        (by simp only [at_]; omega) (by simp only [at_]; omega) (by simp only [at_]; omega)
      simp only [at_, hi] at ht ⊢
      by_cases h1 : d.length < d.offset + k + fromZigzag n
      · rw [if_pos h1] at ht ⊢
        exact run_err ht
      · rw [if_neg h1] at ht ⊢
        by_cases h2 : fromZigzag n < 0
        · rw [if_pos (.inl h2)] at ht
          rw [if_pos h2]
          exact run_panic ht
        · rw [if_neg (by omega)] at ht
          rw [if_neg h2, run_ok ht]
          have e : (d.offset + k).toNat = d.offset.toNat + k := by omega
          simp only [ahead, List.drop_drop, e]
          rfl
    · rw [if_neg hf] at h ⊢
      rw [run_ok h]
      have e0 : (0 : Int64).toInt = 0 := rfl
      have ht := takeBytes_at (d := at_ d (d.offset - k)) (i := (0 : Int64).toInt) hd.small (by simp only [at_]; omega) hd.len_le
        (by simp only [at_]; omega) (by simp only [at_]; omega) (by simp only [at_, e0]; omega)
      simp only [at_, e0] at ht ⊢
      rw [if_neg (by omega)] at ht
      by_cases h2 : d.offset < k
      · rw [if_pos (by omega)] at ht
        rw [if_pos h2]
        exact run_panic ht
      · rw [if_neg (by omega)] at ht
        rw [if_neg h2, run_ok ht]
        simp [Dec.pure]

theorem stringTail_at {d : Decoder} {i : Int} (hs : d.raw.length < 2 ^ 62) (hl : 0 ≤ d.length) (hr : d.length ≤ d.raw.length)
    (ho : -2 ^ 62 ≤ d.offset) (ho' : d.offset ≤ d.raw.length) (hi : -2 ^ 63 ≤ d.offset + i) (h0 : 0 < i → 0 ≤ d.offset) :
    (Dec.remains i >>= fun _ => Dec.runeLoop i >>= fun s => Dec.advance i >>= fun _ => pure s) d =
      if d.length < d.offset + i then .err .shortBuffer d
      else .ok (sanitize ((d.raw.drop d.offset.toNat).take i.toNat)) (at_ d (d.offset + i)) := by
  have h := remains_at (i := i) hl (by omega) ho (by omega)
  by_cases h1 : d.length < d.offset + i
  · rw [if_pos h1] at h ⊢
    exact run_err h
  · rw [if_neg h1] at h ⊢
    rw [run_ok h]
    have hw : wrap64 (d.offset + i) = d.offset + i := wrap64_id (by omega) (by omega)
    have he : Dec.runeLoop i d = .ok (sanitize ((d.raw.drop d.offset.toNat).take i.toNat)) d := by
      unfold Dec.runeLoop Dec.expr goSlice
      simp only [hw]
      by_cases hj : i ≤ 0
      · rw [if_pos hj, show i.toNat = 0 by omega, List.take_zero]
        rfl
      · rw [if_neg hj, if_pos (by omega), show d.offset + i - d.offset = i by omega]
        rfl
    rw [run_ok he, run_ok (advance_at (by omega) (by omega))]
    rfl

/-- `VarString`: a negative length, too, is a string: the empty one, and the position moves back by it. -/
theorem C73_varString (d : Decoder) (hd : d.Valid) :
    Dec.varString d = match base128 (ahead d) with
    | none => .err .shortBuffer (at_ d d.length)
    | some (n, k) =>
      if Fits n k then
        if d.length < d.offset + k + fromZigzag n then .err .shortBuffer (at_ d (d.offset + k))
        else .ok (sanitize (((ahead d).drop k).take (fromZigzag n).toNat)) (at_ d (d.offset + k + fromZigzag n))
      else .ok [] (at_ d (d.offset - k)) := by
  have := hd.off_nonneg; have := hd.off_le; have := hd.len_le; have := hd.small
  have hl := ahead_length hd
  have h := C73_varInt d hd
  unfold Dec.varString
  cases hb : base128 (ahead d) with
  | none =>
    rw [hb] at h
    exact run_err h
  | some nk =>
    obtain ⟨n, k⟩ := nk
    rw [hb] at h
    obtain ⟨hk1, hk2⟩ := base128_pos hb
    simp only at h ⊢
    by_cases hf : Fits n k
    · rw [if_pos hf] at h ⊢
      obtain ⟨i, hi, h⟩ := h
      obtain ⟨r1, r2⟩ := fromZigzag_range hf.2
      rw [run_ok h]
      have ht := stringTail_at (d := at_ d (d.offset + k)) (i := i.toInt) hd.small (by simp only [at_]; omega) hd.len_le
        (by simp only [at_]; omega) (by simp only [at_]; omega) (by simp only [at_]; omega) (by simp only [at_]; omega)
      refine Eq.trans ht ?_
      have e : (d.offset + k).toNat = d.offset.toNat + k := by omega
      simp only [at_, hi, ahead, List.drop_drop, e]
    · rw [if_neg hf] at h ⊢
      rw [run_ok h]
      have e0 : (0 : Int64).toInt = 0 := rfl
      have ht := stringTail_at (d := at_ d (d.offset - k)) (i := (0 : Int64).toInt) hd.small (by simp only [at_]; omega) hd.len_le
        (by simp only [at_]; omega) (by simp only [at_]; omega) (by simp only [at_, e0]; omega) (by rw [e0]; omega)
      refine Eq.trans ht ?_
      simp only [at_, e0]
      rw [if_neg (by omega)]
      simp [sanitize, runes, runesAux]

/-! ### When the reads are orderly -/

theorem rest_len {d : Decoder} (hd : d.Valid) : (d.rest.length : Int) = d.length - d.offset := by
  have := hd.off_nonneg; have := hd.off_le; have := hd.len_le
  have := Decoder.rest_length hd
  omega

theorem orderly_err {α : Type} (d d' : Decoder) (e : DErr) : Orderly (α := α) d (.err e d') := .inr ⟨e, d', rfl⟩

theorem orderly_panic {α : Type} (d : Decoder) : ¬ Orderly (α := α) d .panic := by
  rintro (⟨a, k, h, _⟩ | ⟨e, d', h⟩) <;> cases h

theorem orderly_ok {α : Type} {d : Decoder} (hd : d.Valid) (a : α) (j : Int) :
    Orderly d (.ok a (at_ d (d.offset + j))) ↔ 1 ≤ j ∧ d.offset + j ≤ d.length := by
  have hr := rest_len hd
  constructor
  · rintro (⟨a', k, h, h1, h2⟩ | ⟨e, d', h⟩)
    · simp only [Res.ok.injEq, at_, Decoder.skip, Decoder.mk.injEq] at h
      omega
    · cases h
  · rintro ⟨h1, h2⟩
    refine .inl ⟨a, j.toNat, ?_, by omega, by omega⟩
    have e : ((j.toNat : Nat) : Int) = j := by omega
    rw [Decoder.skip, e]
    rfl

/-- `VarInt` is orderly exactly if the number, if there is one, fits and ends within the declared length. -/
theorem C73_varInt_exact (d : Decoder) (hd : d.Valid) :
    Orderly d (Dec.varInt d) ↔ ∀ n k, base128 (ahead d) = some (n, k) → Fits n k ∧ d.offset + k ≤ d.length := by
  have h := C73_varInt d hd
  cases hb : base128 (ahead d) with
  | none =>
    rw [hb] at h
    simp only at h
    rw [h]
    exact ⟨fun _ n k hc => by simp at hc, fun _ => orderly_err _ _ _⟩
  | some nk =>
    obtain ⟨n, k⟩ := nk
    obtain ⟨hk1, hk2⟩ := base128_pos hb
    rw [hb] at h
    simp only [Option.some.injEq, Prod.mk.injEq] at h ⊢
    have e : (∀ n' k', n = n' ∧ k = k' → Fits n' k' ∧ d.offset + k' ≤ d.length) ↔ (Fits n k ∧ d.offset + k ≤ d.length) :=
      ⟨fun h => h n k ⟨rfl, rfl⟩, by rintro h n' k' ⟨rfl, rfl⟩; exact h⟩
    rw [e]
    by_cases hf : Fits n k
    · rw [if_pos hf] at h
      obtain ⟨i, _, h⟩ := h
      rw [h, orderly_ok hd]
      simp only [hf, true_and]
      omega
    · rw [if_neg hf] at h
      rw [h, show d.offset - (k : Int) = d.offset + -(k : Int) by omega, orderly_ok hd]
      simp only [hf, false_and, iff_false]
      omega

/-- `VarBytes` is orderly exactly if the length, if there is one, fits and is not negative or more than there is. -/
theorem C73_varBytes_exact (d : Decoder) (hd : d.Valid) :
    Orderly d (Dec.varBytes d) ↔ ∀ n k, base128 (ahead d) = some (n, k) →
      Fits n k ∧ (0 ≤ fromZigzag n ∨ d.length < d.offset + k + fromZigzag n) := by
  have h := C73_varBytes d hd
  cases hb : base128 (ahead d) with
  | none =>
    rw [hb] at h
    simp only at h
    rw [h]
    exact ⟨fun _ n k hc => by simp at hc, fun _ => orderly_err _ _ _⟩
  | some nk =>
    obtain ⟨n, k⟩ := nk
    obtain ⟨hk1, hk2⟩ := base128_pos hb
    rw [hb] at h
    simp only [Option.some.injEq, Prod.mk.injEq] at h ⊢
    have e : (∀ n' k', n = n' ∧ k = k' → Fits n' k' ∧ (0 ≤ fromZigzag n' ∨ d.length < d.offset + k' + fromZigzag n')) ↔
        (Fits n k ∧ (0 ≤ fromZigzag n ∨ d.length < d.offset + k + fromZigzag n)) :=
      ⟨fun h => h n k ⟨rfl, rfl⟩, by rintro h n' k' ⟨rfl, rfl⟩; exact h⟩
    rw [e, h]
    by_cases hf : Fits n k
    · rw [if_pos hf]
      simp only [hf, true_and]
      by_cases h1 : d.length < d.offset + k + fromZigzag n
      · rw [if_pos h1]
        exact ⟨fun _ => .inr h1, fun _ => orderly_err _ _ _⟩
      · rw [if_neg h1]
        by_cases h2 : fromZigzag n < 0
        · rw [if_pos h2]
          exact ⟨fun h => absurd h (orderly_panic d), fun h => by omega⟩
        · rw [if_neg h2, Int.add_assoc, orderly_ok hd]
          omega
    · rw [if_neg hf]
      simp only [hf, false_and, iff_false]
      split
      · exact orderly_panic d
      · rw [show d.offset - (k : Int) = d.offset + -(k : Int) by omega, orderly_ok hd]
        omega

/-- `VarString` is orderly exactly if the length, if there is one, fits and is more than there is or does not lead back. -/
theorem C73_varString_exact (d : Decoder) (hd : d.Valid) :
    Orderly d (Dec.varString d) ↔ ∀ n k, base128 (ahead d) = some (n, k) →
      Fits n k ∧ (1 ≤ k + fromZigzag n ∨ d.length < d.offset + k + fromZigzag n) := by
  have h := C73_varString d hd
  cases hb : base128 (ahead d) with
  | none =>
    rw [hb] at h
    simp only at h
    rw [h]
    exact ⟨fun _ n k hc => by simp at hc, fun _ => orderly_err _ _ _⟩
  | some nk =>
    obtain ⟨n, k⟩ := nk
    obtain ⟨hk1, hk2⟩ := base128_pos hb
    rw [hb] at h
    simp only [Option.some.injEq, Prod.mk.injEq] at h ⊢
    have e : (∀ n' k', n = n' ∧ k = k' → Fits n' k' ∧ (1 ≤ k' + fromZigzag n' ∨ d.length < d.offset + k' + fromZigzag n')) ↔
        (Fits n k ∧ (1 ≤ k + fromZigzag n ∨ d.length < d.offset + k + fromZigzag n)) :=
      ⟨fun h => h n k ⟨rfl, rfl⟩, by rintro h n' k' ⟨rfl, rfl⟩; exact h⟩
    rw [e, h]
    by_cases hf : Fits n k
    · rw [if_pos hf]
      simp only [hf, true_and]
      by_cases h1 : d.length < d.offset + k + fromZigzag n
      · rw [if_pos h1]
        exact ⟨fun _ => .inr h1, fun _ => orderly_err _ _ _⟩
      · rw [if_neg h1, Int.add_assoc, orderly_ok hd]
        omega
    · rw [if_neg hf]
      simp only [hf, false_and, iff_false]
      rw [show d.offset - (k : Int) = d.offset + -(k : Int) by omega, orderly_ok hd]
      omega

theorem base128_append {bs : List Byte} {n k : Nat} (h : base128 bs = some (n, k)) (t : List Byte) :
    base128 (bs ++ t) = some (n, k) := by
  induction bs generalizing n k with
  | nil => simp [base128] at h
  | cons b bs ih =>
    rw [base128] at h
    rw [List.cons_append, base128]
    split at h
    · rename_i hb; rw [if_pos hb]; exact h
    · rename_i hb
      rw [if_neg hb]
      obtain ⟨⟨n', k'⟩, h1, h2⟩ := Option.map_eq_some_iff.1 h
      rw [ih h1]
      exact congrArg some h2

theorem ahead_rest {d : Decoder} (hd : d.Valid) : ∃ t, ahead d = d.rest ++ t := by
  obtain ⟨t, h⟩ := goSliceFrom_eq hd
  refine ⟨t, ?_⟩
  rw [ahead_slice hd] at h
  exact Option.some.inj h

/-- What is left of the claim: a number that fits, is not negative and ends within the declared length is read by all
three in order.  (Missing: the other cases; see the equivalences above, and `C73_fails`.) -/
theorem C73_partial (d : Decoder) (hd : d.Valid) (n k : Nat) (h : base128 d.rest = some (n, k)) (hf : Fits n k)
    (h0 : 0 ≤ fromZigzag n) : Orderly d (Dec.varInt d) ∧ Orderly d (Dec.varBytes d) ∧ Orderly d (Dec.varString d) := by
  obtain ⟨t, ht⟩ := ahead_rest hd
  have ha : base128 (ahead d) = some (n, k) := by rw [ht]; exact base128_append h t
  have hk := base128_pos h
  have hr := rest_len hd
  refine ⟨(C73_varInt_exact d hd).2 ?_, (C73_varBytes_exact d hd).2 ?_, (C73_varString_exact d hd).2 ?_⟩ <;>
  · intro n' k' h'
    rw [ha] at h'
    simp only [Option.some.injEq, Prod.mk.injEq] at h'
    obtain ⟨rfl, rfl⟩ := h'
    refine ⟨hf, by omega⟩

example : ∃ n k, base128 (newDecoder [0x04, 0x61, 0x62] 3).rest = some (n, k) ∧ Fits n k ∧ 0 ≤ fromZigzag n ∧
    Dec.varString (newDecoder [0x04, 0x61, 0x62] 3) = .ok [0x61, 0x62] ⟨[0x04, 0x61, 0x62], 3, 3⟩ :=
  ⟨4, 1, by decide, by decide, by decide, by decide +kernel⟩

/-- The claim is false of each of them: a varint completed from bytes behind the declared length; a length of -1 that
panics; a length of -1 at which a string is read without moving. -/
theorem C73_fails : ¬ C73_statement := fun h =>
  absurd ((C73_varInt_exact ⟨[0x80, 0x01], 1, 0⟩ ⟨by decide, by decide, by decide, by decide⟩).1
    (h _ ⟨by decide, by decide, by decide, by decide⟩).1 128 2 (by decide)).2 (by decide)

theorem C73_varBytes_fails : ∃ d : Decoder, d.Valid ∧ Dec.varBytes d = .panic :=
  ⟨⟨[0x01], 1, 0⟩, ⟨by decide, by decide, by decide, by decide⟩, by decide +kernel⟩

/-- At a length of -1, of one byte, strings can be read without end: each is empty, and the position stays. -/
theorem C73_varString_fails (d : Decoder) (hd : d.Valid) (h : base128 d.rest = some (1, 1)) (m : Nat) :
    Dec.loop Dec.varString m d = .ok (List.replicate m []) d := by
  obtain ⟨t, ht⟩ := ahead_rest hd
  have ha : base128 (ahead d) = some (1, 1) := by rw [ht]; exact base128_append h t
  have hr := rest_len hd
  have hk := base128_pos h
  have h1 : Dec.varString d = .ok [] d := by
    rw [C73_varString d hd, ha]
    simp only
    have hz : fromZigzag 1 = -1 := rfl
    rw [if_pos (by decide), hz, if_neg (by omega)]
    have e : d.offset + ((1 : Nat) : Int) + -1 = d.offset := by omega
    rw [e]
    rfl
  induction m with
  | zero => rfl
  | succ m ih =>
    rw [Dec.loop, run_ok h1, run_ok ih]
    rfl

example : (newDecoder [0x01, 0x00] 2).Valid ∧ base128 (newDecoder [0x01, 0x00] 2).rest = some (1, 1) :=
  ⟨⟨by decide, by decide, by decide, by decide⟩, by decide⟩

end Kafka.Props
