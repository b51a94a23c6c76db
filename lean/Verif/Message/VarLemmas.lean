import Verif.Message.DecPrims
import Verif.Message.EncLemmas
/-!
Lemmas about varints.
-/
namespace Kafka

theorem putUvarint_eq (n : Nat) : putUvarint n = Wire.base128 n := by
  induction n using Nat.strongRecOn with
  | _ n ih =>
    unfold putUvarint Wire.base128
    by_cases h : n < 128
    · simp [h]
    · simp only [h, dite_false]
      rw [ih (n / 128) (by omega), Nat.add_comm]

theorem wire_zigzag (x : Int64) : (zigzag x).toNat = Wire.zigzag x.toInt := by
  have h1 : x.toInt = x.toBitVec.toInt := rfl
  have hlt : x < 0 ↔ x.toInt < 0 := by rw [Int64.lt_iff_toInt_lt]; rfl
  have hb := x.toBitVec.isLt
  have hz : (x.toBitVec <<< 1).toNat = 2 * x.toBitVec.toNat % 2 ^ 64 := by
    rw [BitVec.toNat_shiftLeft, Nat.shiftLeft_eq]; omega
  unfold zigzag Wire.zigzag
  by_cases h : x < 0
  · have h' := hlt.1 h
    simp only [h, h', if_true]
    rw [BitVec.toNat_not, hz]
    rw [h1, BitVec.toInt_eq_toNat_cond] at *
    split at h' <;> split <;> omega
  · have h' : ¬ x.toInt < 0 := fun hc => h (hlt.2 hc)
    simp only [h, h', if_false]
    rw [hz]
    rw [h1, BitVec.toInt_eq_toNat_cond] at *
    split at h' <;> split <;> omega

theorem putVarint_eq (x : Int64) : putVarint x = Wire.varInt x := by
  unfold putVarint Wire.varInt
  rw [putUvarint_eq, wire_zigzag]

theorem or_shift {x : BitVec 64} {b : BitVec 64} {i : Nat} (hx : x.toNat < 2 ^ (7 * i))
    (hb : x.toNat + b.toNat * 2 ^ (7 * i) < 2 ^ 64) :
    (x ||| (b <<< (7 * i))).toNat = x.toNat + b.toNat * 2 ^ (7 * i) := by
  have h1 : b.toNat * 2 ^ (7 * i) < 2 ^ 64 := by omega
  rw [BitVec.toNat_or, BitVec.toNat_shiftLeft, Nat.shiftLeft_eq, Nat.mod_eq_of_lt h1, Nat.or_comm,
    ← Nat.shiftLeft_eq, ← Nat.shiftLeft_add_eq_or_of_lt hx, Nat.add_comm]

theorem uvarintLoop_base128 (n : Nat) (x : BitVec 64) (i : Nat) (t : List Byte)
    (hx : x.toNat < 2 ^ (7 * i)) (hn : x.toNat + n * 2 ^ (7 * i) < 2 ^ 64) (hi : i ≤ 9) :
    uvarintLoop x i (Wire.base128 n ++ t) =
      (BitVec.ofNat 64 (x.toNat + n * 2 ^ (7 * i)), (i : Int) + (Wire.base128 n).length) := by
  induction n using Nat.strongRecOn generalizing x i with
  | _ n ih =>
    unfold Wire.base128
    by_cases h : n < 128
    · simp only [h, dite_true, List.cons_append, List.nil_append, List.length_singleton]
      unfold uvarintLoop
      have hb : (BitVec.ofNat 8 n).toNat = n := by simp; omega
      rw [hb, if_pos h]
      have h9 : ¬ ((decide (i > 9) || (i == 9 && decide (n > 1))) = true) := by
        simp only [Bool.or_eq_true, decide_eq_true_eq, Bool.and_eq_true, beq_iff_eq, not_or, not_and]
        refine ⟨by omega, ?_⟩
        rintro rfl
        omega
      rw [if_neg h9]
      congr 1
      apply BitVec.eq_of_toNat_eq
      have hb' : ((BitVec.ofNat 8 n).setWidth 64).toNat = n := by simp; omega
      rw [or_shift hx (by rw [hb']; exact hn), hb', BitVec.toNat_ofNat, Nat.mod_eq_of_lt hn]
    · simp only [h, dite_false, List.cons_append]
      unfold uvarintLoop
      have hb : (BitVec.ofNat 8 (128 + n % 128)).toNat = 128 + n % 128 := by simp; omega
      rw [hb, if_neg (by omega)]
      have hb7 : ((BitVec.ofNat 8 (128 + n % 128) &&& 0x7f#8).setWidth 64).toNat = n % 128 := by
        rw [BitVec.toNat_setWidth, BitVec.toNat_and, hb]
        have : (128 + n % 128) &&& (127#8).toNat = n % 128 := by
          show (128 + n % 128) &&& (2 ^ 7 - 1) = _
          rw [Nat.and_two_pow_sub_one_eq_mod]; omega
        omega
      have hsum : x.toNat + n % 128 * 2 ^ (7 * i) + n / 128 * 2 ^ (7 * (i + 1)) =
          x.toNat + n * 2 ^ (7 * i) := by
        have e : 2 ^ (7 * (i + 1)) = 128 * 2 ^ (7 * i) := by
          rw [Nat.mul_add, Nat.pow_add, Nat.mul_comm]
        have e2 : n = n % 128 + n / 128 * 128 := by omega
        rw [e]
        conv => rhs; rw [e2]
        rw [Nat.add_mul, Nat.mul_assoc]; omega
      have hor := or_shift (x := x) (b := (BitVec.ofNat 8 (128 + n % 128) &&& 0x7f#8).setWidth 64)
        (i := i) hx (by rw [hb7]; omega)
      rw [hb7] at hor
      have hi9 : i ≤ 8 := by
        rcases Nat.lt_or_ge i 9 with h9 | h9
        · omega
        · have : i = 9 := by omega
          subst this
          omega
      rw [ih (n / 128) (by omega) _ (i + 1) ?_ ?_ (by omega)]
      · rw [hor, hsum]
        congr 1
        simp only [List.length_cons]; omega
      · rw [hor]
        have e : 2 ^ (7 * (i + 1)) = 128 * 2 ^ (7 * i) := by
          rw [Nat.mul_add, Nat.pow_add, Nat.mul_comm]
        have : n % 128 * 2 ^ (7 * i) ≤ 127 * 2 ^ (7 * i) := Nat.mul_le_mul_right _ (by omega)
        rw [e]; omega
      · rw [hor]; omega

theorem uvarint_base128 {n : Nat} (h : n < 2 ^ 64) (t : List Byte) :
    uvarint (Wire.base128 n ++ t) = (BitVec.ofNat 64 n, ((Wire.base128 n).length : Int)) := by
  unfold uvarint
  rw [uvarintLoop_base128 n 0 0 t (by simp) (by simp; omega) (by omega)]
  simp

theorem unzigzag (x : Int64) :
    (if zigzag x &&& 1 != 0 then ~~~(zigzag x >>> 1) else zigzag x >>> 1) = x.toBitVec := by
  have hm : x.toBitVec.msb = decide (x < 0) := by
    rw [BitVec.msb_eq_toInt]
    congr 1
    rw [Int64.lt_iff_toInt_lt]
    rfl
  have hone : ∀ b : BitVec 64, (b &&& 1 != 0) = b.getLsbD 0 := by
    intro b
    have h1 : (b &&& 1).toNat = b.toNat % 2 := by
      rw [BitVec.toNat_and]
      exact Nat.and_two_pow_sub_one_eq_mod _ 1
    have h2 : b.getLsbD 0 = decide (b.toNat % 2 = 1) := by
      rw [BitVec.getLsbD, Nat.testBit_zero]
    rw [h2]
    by_cases hb : b.toNat % 2 = 1
    · have : b &&& 1 ≠ 0 := fun hc => by rw [hc] at h1; simp at h1; omega
      simp only [hb, decide_true, bne_iff_ne, ne_eq]; exact this
    · have : b &&& 1 = 0 := BitVec.eq_of_toNat_eq (by rw [h1]; simp; omega)
      simp only [hb, this]; rfl
  rw [hone]
  have hmsb : x.toBitVec.msb = x.toBitVec.getLsbD 63 := by simp [BitVec.msb_eq_getLsbD_last]
  unfold zigzag
  by_cases h : x < 0
  · have h63 : x.toBitVec.getLsbD 63 = true := by rw [← hmsb, hm]; simp [h]
    simp only [h, if_true]
    ext i hi
    simp
    by_cases h1 : 1 + i < 64
    · simp [h1, BitVec.getLsbD_eq_getElem hi]
    · have : i = 63 := by omega
      subst this; simpa using h63.symm
  · have h63 : x.toBitVec.getLsbD 63 = false := by rw [← hmsb, hm]; simp [h]
    simp only [h, if_false]
    ext i hi
    simp
    by_cases h1 : 1 + i < 64
    · simp [h1, BitVec.getLsbD_eq_getElem hi]
    · have : i = 63 := by omega
      subst this; simpa using h63.symm

theorem varint_varInt (x : Int64) (t : List Byte) :
    varint (Wire.varInt x ++ t) = (x, ((Wire.varInt x).length : Int)) := by
  have hz : Wire.zigzag x.toInt < 2 ^ 64 := by rw [← wire_zigzag]; exact (zigzag x).isLt
  unfold varint Wire.varInt
  rw [uvarint_base128 hz]
  simp only [← wire_zigzag, BitVec.ofNat_toNat, BitVec.setWidth_eq]
  rw [unzigzag, Int64.ofBitVec_toBitVec]

theorem base128_ne_nil (n : Nat) : Wire.base128 n ≠ [] := by
  unfold Wire.base128; split <;> simp

end Kafka
