import Verif.Message.VarLemmas
/-!
Lemmas about UTF-8.
-/
namespace Kafka

def charBytes (c : Char) : List Byte := (String.utf8EncodeChar c).map UInt8.toBitVec

theorem utf8_cons (c : Char) (cs : List Char) : Wire.utf8 (c :: cs) = charBytes c ++ Wire.utf8 cs := by
  simp [Wire.utf8, charBytes]

theorem char_range (c : Char) :
    c.toNat < 0xD800 ∨ (0xDFFF < c.toNat ∧ c.toNat < 0x110000) := c.valid

theorem ofNat8 (n : Nat) : (UInt8.ofNat n).toBitVec = BitVec.ofNat 8 n := rfl

theorem encodeRune_char (c : Char) : encodeRune c.toNat = charBytes c := by
  have h := char_range c
  unfold encodeRune charBytes String.utf8EncodeChar
  have e : c.val.toNat = c.toNat := rfl
  simp only [e]
  generalize c.toNat = v at *
  by_cases h1 : v ≤ 0x7f
  · simp [h1, ofNat8]
  · by_cases h2 : v ≤ 0x7ff
    · simp only [h1, h2, if_true, if_false, List.map_cons, List.map_nil, ofNat8]
      rw [show v / 64 % 32 = v / 64 by omega, Nat.add_comm, Nat.add_comm 128]
    · have h3 : ¬ (v > 0x10FFFF ∨ (0xD800 ≤ v ∧ v ≤ 0xDFFF)) := by omega
      by_cases h4 : v ≤ 0xffff
      · simp only [h1, h2, h3, h4, if_true, if_false, List.map_cons, List.map_nil, ofNat8]
        rw [show v / 4096 % 16 = v / 4096 by omega, Nat.add_comm, Nat.add_comm 128 (v / 64 % 64),
          Nat.add_comm 128]
      · simp only [h1, h2, h3, h4, if_false, List.map_cons, List.map_nil, ofNat8]
        rw [show v / 262144 % 8 = v / 262144 by omega, Nat.add_comm, Nat.add_comm 128 (v / 4096 % 64),
          Nat.add_comm 128 (v / 64 % 64), Nat.add_comm 128]

theorem toNat8 {n : Nat} (h : n < 256) : (BitVec.ofNat 8 n).toNat = n := by
  simp; omega

theorem utf8Lead2 {p : Nat} (h : 0xC2 ≤ p) (h' : p ≤ 0xDF) : utf8Lead p = some (2, 0x80, 0xBF) := by
  unfold utf8Lead; rw [if_pos ⟨h, h'⟩]

theorem utf8Lead3 {p : Nat} (h : 0xE0 ≤ p) (h' : p ≤ 0xEF) :
    utf8Lead p = some (3, if p = 0xE0 then 0xA0 else 0x80, if p = 0xED then 0x9F else 0xBF) := by
  unfold utf8Lead
  rw [if_neg (by omega)]
  by_cases h1 : p = 0xE0
  · subst h1; simp
  · by_cases h2 : p = 0xED
    · subst h2; simp
    · simp only [h1, h2, if_false]
      rw [if_pos (by omega)]

theorem utf8Lead4 {p : Nat} (h : 0xF0 ≤ p) (h' : p ≤ 0xF4) :
    utf8Lead p = some (4, if p = 0xF0 then 0x90 else 0x80, if p = 0xF4 then 0x8F else 0xBF) := by
  unfold utf8Lead
  rw [if_neg (by omega), if_neg (by omega), if_neg (by omega), if_neg (by omega)]
  by_cases h1 : p = 0xF0
  · subst h1; simp
  · by_cases h2 : p = 0xF4
    · subst h2; simp
    · simp only [h1, h2, if_false]
      rw [if_pos (by omega)]

theorem decodeRune_1 {p0 : Byte} (t : List Byte) (h : p0.toNat < 0x80) :
    decodeRune (p0 :: t) = (p0.toNat, 1) := by
  simp only [decodeRune, if_pos h]

theorem decodeRune_2 {p0 b1 : Byte} {lo hi : Nat} (t : List Byte) (h : ¬ p0.toNat < 0x80)
    (hl : utf8Lead p0.toNat = some (2, lo, hi)) (h1 : ¬ (b1.toNat < lo ∨ hi < b1.toNat)) :
    decodeRune (p0 :: b1 :: t) = (p0.toNat % 32 * 64 + b1.toNat % 64, 2) := by
  simp only [decodeRune, if_neg h, hl, List.length_cons, if_neg h1, if_true]
  rw [if_neg (by omega)]

theorem decodeRune_3 {p0 b1 b2 : Byte} {lo hi : Nat} (t : List Byte) (h : ¬ p0.toNat < 0x80)
    (hl : utf8Lead p0.toNat = some (3, lo, hi)) (h1 : ¬ (b1.toNat < lo ∨ hi < b1.toNat))
    (h2 : ¬ (b2.toNat < 0x80 ∨ 0xBF < b2.toNat)) :
    decodeRune (p0 :: b1 :: b2 :: t) =
      (p0.toNat % 16 * 4096 + b1.toNat % 64 * 64 + b2.toNat % 64, 3) := by
  simp only [decodeRune, if_neg h, hl, List.length_cons, if_neg h1, if_neg h2, if_true]
  rw [if_neg (by omega), if_neg (by omega)]

theorem decodeRune_4 {p0 b1 b2 b3 : Byte} {lo hi : Nat} (t : List Byte) (h : ¬ p0.toNat < 0x80)
    (hl : utf8Lead p0.toNat = some (4, lo, hi)) (h1 : ¬ (b1.toNat < lo ∨ hi < b1.toNat))
    (h2 : ¬ (b2.toNat < 0x80 ∨ 0xBF < b2.toNat)) (h3 : ¬ (b3.toNat < 0x80 ∨ 0xBF < b3.toNat)) :
    decodeRune (p0 :: b1 :: b2 :: b3 :: t) =
      (p0.toNat % 8 * 262144 + b1.toNat % 64 * 4096 + b2.toNat % 64 * 64 + b3.toNat % 64, 4) := by
  simp only [decodeRune, if_neg h, hl, List.length_cons, if_neg h1, if_neg h2, if_neg h3]
  rw [if_neg (by omega), if_neg (by omega), if_neg (by omega)]

theorem decodeRune_encode {v : Nat} (h : v < 0xD800 ∨ (0xDFFF < v ∧ v < 0x110000)) (t : List Byte) :
    decodeRune (encodeRune v ++ t) = (v, (encodeRune v).length) := by
  unfold encodeRune
  by_cases h1 : v ≤ 0x7f
  · simp only [h1, if_true, List.cons_append, List.nil_append, List.length_singleton]
    have e0 : (BitVec.ofNat 8 v).toNat = v := toNat8 (by omega)
    rw [decodeRune_1 _ (by omega), e0]
  · by_cases h2 : v ≤ 0x7ff
    · simp only [h1, h2, if_true, if_false, List.cons_append, List.nil_append, List.length_cons,
        List.length_nil]
      have e0 : (BitVec.ofNat 8 (0xC0 + v / 64)).toNat = 0xC0 + v / 64 := toNat8 (by omega)
      have e1 : (BitVec.ofNat 8 (0x80 + v % 64)).toNat = 0x80 + v % 64 := toNat8 (by omega)
      rw [decodeRune_2 _ (by omega) (utf8Lead2 (by omega) (by omega)) (by omega), e0, e1]
      congr 1; omega
    · have h3 : ¬ (v > 0x10FFFF ∨ (0xD800 ≤ v ∧ v ≤ 0xDFFF)) := by omega
      have e1 : (BitVec.ofNat 8 (0x80 + v / 64 % 64)).toNat = 0x80 + v / 64 % 64 :=
        toNat8 (by omega)
      have e2 : (BitVec.ofNat 8 (0x80 + v % 64)).toNat = 0x80 + v % 64 := toNat8 (by omega)
      by_cases h4 : v ≤ 0xffff
      · simp only [h1, h2, h3, h4, if_true, if_false, List.cons_append, List.nil_append,
          List.length_cons, List.length_nil]
        have e0 : (BitVec.ofNat 8 (0xE0 + v / 4096)).toNat = 0xE0 + v / 4096 := toNat8 (by omega)
        rw [decodeRune_3 _ (by omega) (utf8Lead3 (by omega) (by omega))
          (by split <;> split <;> omega) (by omega), e0, e1, e2]
        congr 1; omega
      · simp only [h1, h2, h3, h4, if_false, List.cons_append, List.nil_append,
          List.length_cons, List.length_nil]
        have e0 : (BitVec.ofNat 8 (0xF0 + v / 262144)).toNat = 0xF0 + v / 262144 :=
          toNat8 (by omega)
        have e3 : (BitVec.ofNat 8 (0x80 + v / 4096 % 64)).toNat = 0x80 + v / 4096 % 64 :=
          toNat8 (by omega)
        rw [decodeRune_4 _ (by omega) (utf8Lead4 (by omega) (by omega))
          (by split <;> split <;> omega) (by omega) (by omega), e0, e1, e2, e3]
        congr 1; omega

theorem charBytes_length_pos (c : Char) : 0 < (charBytes c).length := by
  rw [← encodeRune_char]
  unfold encodeRune
  split
  · simp
  · split
    · simp
    · split <;> (dsimp only; split <;> simp)

theorem runesAux_utf8 (cs : List Char) (fuel : Nat) (h : (Wire.utf8 cs).length ≤ fuel) :
    runesAux fuel (Wire.utf8 cs) = cs.map Char.toNat := by
  induction cs generalizing fuel with
  | nil => cases fuel <;> rfl
  | cons c cs ih =>
    rw [utf8_cons] at *
    have hp := charBytes_length_pos c
    rw [List.length_append] at h
    have hd := decodeRune_encode (char_range c) (Wire.utf8 cs)
    rw [encodeRune_char] at hd
    cases fuel with
    | zero => omega
    | succ fuel =>
      cases hb : charBytes c with
      | nil => rw [hb] at hp; simp at hp
      | cons b bs =>
        rw [hb] at hd
        simp only [List.cons_append] at hd ⊢
        unfold runesAux
        rw [hd]
        simp only [List.map_cons]
        congr 1
        have : (b :: (bs ++ Wire.utf8 cs)).drop (b :: bs).length = Wire.utf8 cs := by
          rw [← List.cons_append]; exact List.drop_left
        rw [this]
        apply ih
        omega

theorem runes_utf8 (cs : List Char) : runes (Wire.utf8 cs) = cs.map Char.toNat :=
  runesAux_utf8 cs _ (Nat.le_refl _)

/-- What `string([]rune(s))`, or writing every rune of `s`, makes of `s`. -/
def sanitize (s : GoString) : GoString := (runes s).flatMap encodeRune

theorem sanitize_valid {s : GoString} (h : ValidUtf8 s) : sanitize s = s := by
  obtain ⟨cs, rfl⟩ := h
  unfold sanitize
  rw [runes_utf8, List.flatMap_map]
  induction cs with
  | nil => rfl
  | cons c cs ih => rw [List.flatMap_cons, ih, encodeRune_char, utf8_cons]

/-! ### Every byte string sanitizes to valid UTF-8 -/

theorem decodeRune_scalar (s : List Byte) :
    (decodeRune s).1 < 0xD800 ∨ (0xDFFF < (decodeRune s).1 ∧ (decodeRune s).1 < 0x110000) := by
  unfold decodeRune
  split
  · simp [runeError]
  · rename_i p0 rest
    have hp0 := p0.isLt
    by_cases hc : p0.toNat < 0x80
    · rw [if_pos hc]; simp only; omega
    · rw [if_neg hc]
      have hlead : ∀ sz lo hi, utf8Lead p0.toNat = some (sz, lo, hi) →
          (sz = 2 ∧ 0xC2 ≤ p0.toNat ∧ p0.toNat ≤ 0xDF ∧ lo = 0x80 ∧ hi = 0xBF) ∨
          (sz = 3 ∧ 0xE0 ≤ p0.toNat ∧ p0.toNat ≤ 0xEF ∧ (p0.toNat = 0xED → hi = 0x9F) ∧ 0x80 ≤ lo ∧ hi ≤ 0xBF) ∨
          (sz = 4 ∧ 0xF0 ≤ p0.toNat ∧ p0.toNat ≤ 0xF4 ∧ (p0.toNat = 0xF0 → 0x90 ≤ lo) ∧
            (p0.toNat = 0xF4 → hi = 0x8F) ∧ 0x80 ≤ lo ∧ hi ≤ 0xBF) := by
        intro sz lo hi h
        unfold utf8Lead at h
        repeat' split at h
        all_goals simp only [Option.some.injEq, Prod.mk.injEq, reduceCtorEq] at h
        all_goals omega
      cases hl : utf8Lead p0.toNat with
      | none => simp [runeError]
      | some q =>
        obtain ⟨sz, lo, hi⟩ := q
        have hq := hlead sz lo hi hl
        simp only
        split
        · simp [runeError]
        · split
          · simp [runeError]
          · rename_i b1 rest2 _
            have hb1 := b1.isLt
            by_cases h1 : b1.toNat < lo ∨ hi < b1.toNat
            · rw [if_pos h1]; simp [runeError]
            · rw [if_neg h1]
              by_cases h2 : sz = 2
              · rw [if_pos h2]; simp only; omega
              · rw [if_neg h2]
                split
                · simp [runeError]
                · rename_i b2 rest3 _
                  by_cases h3 : b2.toNat < 0x80 ∨ 0xBF < b2.toNat
                  · rw [if_pos h3]; simp [runeError]
                  · rw [if_neg h3]
                    by_cases h4 : sz = 3
                    · rw [if_pos h4]; simp only; omega
                    · rw [if_neg h4]
                      split
                      · simp [runeError]
                      · rename_i b3 _ _
                        by_cases h5 : b3.toNat < 0x80 ∨ 0xBF < b3.toNat
                        · rw [if_pos h5]; simp [runeError]
                        · rw [if_neg h5]; simp only; omega

theorem runesAux_scalar (fuel : Nat) (s : List Byte) :
    ∀ v ∈ runesAux fuel s, v < 0xD800 ∨ (0xDFFF < v ∧ v < 0x110000) := by
  induction fuel generalizing s with
  | zero => simp [runesAux]
  | succ fuel ih =>
    cases s with
    | nil => simp [runesAux]
    | cons b bs =>
      intro v hv
      simp only [runesAux, List.mem_cons] at hv
      rcases hv with rfl | hv
      · exact decodeRune_scalar (b :: bs)
      · exact ih _ v hv

/-- Sanitizing any byte string gives valid UTF-8. -/
theorem valid_sanitize (s : GoString) : ValidUtf8 (sanitize s) := by
  unfold sanitize runes
  have h := runesAux_scalar s.length s
  generalize runesAux s.length s = l at h
  induction l with
  | nil => exact ⟨[], rfl⟩
  | cons v l ih =>
    obtain ⟨cs, hcs⟩ := ih fun x hx => h x (by simp [hx])
    have hv := h v (by simp)
    let c : Char := ⟨v.toUInt32, by
      have : v.toUInt32.toNat = v := by
        show v % 2 ^ 32 = v
        omega
      simp only [UInt32.isValidChar, this]
      exact hv⟩
    have hc : c.toNat = v := by
      show v % 2 ^ 32 = v
      omega
    exact ⟨c :: cs, by rw [List.flatMap_cons, hcs, utf8_cons, ← encodeRune_char, hc]⟩

end Kafka
