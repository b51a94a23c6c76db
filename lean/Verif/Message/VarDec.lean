import Verif.Message.Utf8Lemmas
/-!
Lemmas about the variable-length encoder and decoder methods.
-/
namespace Kafka

/-- `m` reads exactly `bs` and returns `a` (the first half of `Reads`). -/
def Exact {α : Type} (m : Dec α) (bs : List Byte) (a : α) : Prop :=
  ∀ d, d.Valid → ∀ tail, d.rest = bs ++ tail → m d = .ok a (d.skip bs.length)

theorem Reads.exact {α : Type} {m : Dec α} {bs : List Byte} {a : α} (h : Reads m bs a) :
    Exact m bs a := h.1

theorem Exact.bind {α β : Type} {m : Dec α} {k : α → Dec β} {as bs : List Byte} {a : α} {b : β}
    (hm : Exact m as a) (hk : Exact (k a) bs b) : Exact (m >>= k) (as ++ bs) b := by
  intro d hd tail ht
  have ht' : d.rest = as ++ (bs ++ tail) := by rw [ht, List.append_assoc]
  have hl : as.length ≤ d.rest.length := by rw [ht']; simp
  rw [bind_ok (hm d hd _ ht'), hk _ (Decoder.skip_valid hd hl) tail (by
    rw [Decoder.skip_rest hd, ht']; simp), Decoder.skip_skip, List.length_append]

theorem Exact.pure {α : Type} (a : α) : Exact (Pure.pure a : Dec α) [] a := (Reads.pure a).1

theorem Exact.map {α β : Type} {m : Dec α} {g : α → β} {as : List Byte} {a : α}
    (hm : Exact m as a) : Exact (m >>= fun x => Pure.pure (g x)) as (g a) := by
  have := hm.bind (k := fun x => (Pure.pure (g x) : Dec β)) (Exact.pure (g a))
  simpa using this

/-! ### VarInt -/

theorem exact_varInt (x : Int64) : Exact Dec.varInt (Wire.varInt x) x := by
  intro d hd tail ht
  obtain ⟨t, hs⟩ := goSliceFrom_eq hd
  have hl : (Wire.varInt x).length ≤ d.rest.length := by rw [ht]; simp
  have hpos : 0 < (Wire.varInt x).length := by
    unfold Wire.varInt
    exact List.length_pos_iff.2 (base128_ne_nil _)
  have := hd.off_nonneg; have := hd.off_le; have := hd.len_le; have := hd.small
  have h3 := Decoder.rest_length hd
  unfold Dec.varInt
  rw [hs]
  simp only [ht, List.append_assoc, varint_varInt]
  rw [if_neg (by omega), if_neg (by omega), wrap64_id (by omega) (by omega)]
  rfl

theorem uvarintLoop_unterminated (l : List Byte) (h : ∀ b ∈ l, 0x80 ≤ b.toNat) (x : BitVec 64)
    (i : Nat) : uvarintLoop x i l = (0, 0) := by
  induction l generalizing x i with
  | nil => rfl
  | cons b l ih =>
    unfold uvarintLoop
    rw [if_neg (by have := h b (by simp); omega)]
    exact ih (fun b hb => h b (by simp [hb])) _ _

theorem uvarintLoop_terminated (pre : List Byte) (b : Byte) (post : List Byte)
    (h : ∀ b ∈ pre, 0x80 ≤ b.toNat) (hb : b.toNat < 0x80) (x : BitVec 64) (i : Nat) :
    ∃ y, uvarintLoop x i (pre ++ b :: post) =
      if i + pre.length > 9 ∨ (i + pre.length = 9 ∧ b.toNat > 1)
      then (0, -((i : Int) + pre.length + 1)) else (y, (i : Int) + pre.length + 1) := by
  induction pre generalizing x i with
  | nil =>
    refine ⟨x ||| (b.setWidth 64 <<< (7 * i)), ?_⟩
    rw [List.nil_append]
    unfold uvarintLoop
    rw [if_pos hb]
    simp only [List.length_nil, Nat.add_zero, Bool.or_eq_true, decide_eq_true_eq,
      Bool.and_eq_true, beq_iff_eq]
    rfl
  | cons c pre ih =>
    obtain ⟨y, hy⟩ := ih (fun b hb => h b (by simp [hb]))
      (x ||| ((c &&& 0x7f#8).setWidth 64 <<< (7 * i))) (i + 1)
    refine ⟨y, ?_⟩
    rw [List.cons_append]
    unfold uvarintLoop
    rw [if_neg (by have := h c (by simp); omega), hy]
    have e1 : i + 1 + pre.length = i + (pre.length + 1) := by omega
    have e2 : ((i + 1 : Nat) : Int) + pre.length + 1 = (i : Int) + ((pre.length + 1 : Nat) : Int) + 1 := by
      omega
    simp only [List.length_cons, e1, e2]

theorem varint_unterminated (l : List Byte) (h : ∀ b ∈ l, 0x80 ≤ b.toNat) :
    (varint l).2 = 0 := by
  unfold varint uvarint
  rw [uvarintLoop_unterminated l h]

theorem base128_all_but_last (n : Nat) :
    ∃ pre b, Wire.base128 n = pre ++ [b] ∧ ∀ c ∈ pre, 0x80 ≤ c.toNat := by
  induction n using Nat.strongRecOn with
  | _ n ih =>
    unfold Wire.base128
    by_cases h : n < 128
    · exact ⟨[], BitVec.ofNat 8 n, by simp [h], by simp⟩
    · obtain ⟨pre, b, h1, h2⟩ := ih (n / 128) (by omega)
      refine ⟨BitVec.ofNat 8 (128 + n % 128) :: pre, b, by simp [h, h1], ?_⟩
      intro c hc
      rcases List.mem_cons.1 hc with rfl | hc
      · rw [toNat8 (by omega)]; omega
      · exact h2 c hc

/-- With nothing behind the declared length, a truncated varint is insufficient data. -/
theorem short_varInt (x : Int64) (d : Decoder) (hd : d.Valid) (hfull : d.length = d.raw.length)
    (hp : d.rest <+: Wire.varInt x) (hne : d.rest ≠ Wire.varInt x) :
    Dec.varInt d = .err .shortBuffer { d with offset := d.length } := by
  have := hd.off_nonneg; have := hd.off_le; have := hd.len_le
  have hs : goSliceFrom d.raw d.offset = some d.rest := by
    unfold goSliceFrom Decoder.rest
    rw [if_pos (by omega), List.take_of_length_le (by omega)]
  have hall : ∀ b ∈ d.rest, 0x80 ≤ b.toNat := by
    obtain ⟨pre, b, h1, h2⟩ := base128_all_but_last (Wire.zigzag x.toInt)
    have hw : Wire.varInt x = pre ++ [b] := h1
    rw [hw] at hp hne
    have hlen : d.rest.length ≤ pre.length := by
      have h3 := hp.length_le
      rcases Nat.lt_or_ge pre.length d.rest.length with h | h
      · exact absurd (hp.eq_of_length (by simp at h3 ⊢; omega)) hne
      · exact h
    have : d.rest <+: pre := List.prefix_of_prefix_length_le hp (List.prefix_append _ _) hlen
    exact fun c hc => h2 c (this.subset hc)
  unfold Dec.varInt
  rw [hs]
  have := varint_unterminated d.rest hall
  simp only [this, if_true]

/-- A varint of more than 64 bits: ten continuation bytes or more, or nine followed by a
byte greater than one. -/
def Overlong (bs : List Byte) : Prop :=
  ∃ pre b post, bs = pre ++ b :: post ∧ (∀ c ∈ pre, 0x80 ≤ c.toNat) ∧ b.toNat < 0x80 ∧
    (9 < pre.length ∨ (pre.length = 9 ∧ 1 < b.toNat))

/-- What `VarInt` does with an overlong varint: it returns zero without an error and moves
the position backwards. -/
theorem varInt_overlong (d : Decoder) (hd : d.Valid) (h : Overlong d.rest) :
    ∃ k : Nat, 10 ≤ k ∧ k ≤ d.rest.length ∧
      Dec.varInt d = .ok 0 { d with offset := d.offset - k } := by
  obtain ⟨pre, b, post, hr, hpre, hb, ho⟩ := h
  have := hd.off_nonneg; have := hd.off_le; have := hd.len_le; have := hd.small
  have h3 := Decoder.rest_length hd
  have hl : d.rest.length = pre.length + 1 + post.length := by rw [hr]; simp; omega
  obtain ⟨t, hs⟩ := goSliceFrom_eq hd
  refine ⟨pre.length + 1, by omega, by omega, ?_⟩
  have hv : varint (d.rest ++ t) = (0, -((pre.length : Int) + 1)) := by
    unfold varint uvarint
    rw [hr, List.append_assoc, List.cons_append]
    obtain ⟨y, hy⟩ := uvarintLoop_terminated pre b (post ++ t) hpre hb 0 0
    rw [hy, if_pos (by omega)]
    simp
  unfold Dec.varInt
  rw [hs]
  simp only [hv]
  rw [if_neg (by omega), if_neg (by omega), wrap64_id (by omega) (by omega)]
  have : d.offset + -((pre.length : Int) + 1) = d.offset - ((pre.length + 1 : Nat) : Int) := by
    omega
  rw [this]

/-- `VarInt` never reports the overflow error. -/
theorem varInt_never_overflow (d : Decoder) (d' : Decoder) :
    Dec.varInt d ≠ .err .varIntOverflow d' := by
  unfold Dec.varInt
  cases hs : goSliceFrom d.raw d.offset with
  | none => simp
  | some s =>
    simp only
    have hn : (varint s).2 ≠ -1 := by
      by_cases hall : ∀ b ∈ s, 0x80 ≤ b.toNat
      · rw [varint_unterminated s hall]; decide
      · obtain ⟨pre, b, post, rfl, h1, h2⟩ : ∃ pre b post, s = pre ++ b :: post ∧
            (∀ c ∈ pre, 0x80 ≤ c.toNat) ∧ b.toNat < 0x80 := by
          clear hs
          induction s with
          | nil => simp at hall
          | cons c s ih =>
            by_cases hc : c.toNat < 0x80
            · exact ⟨[], c, s, rfl, by simp, hc⟩
            · have : ¬ ∀ b ∈ s, 0x80 ≤ b.toNat := by
                intro h; apply hall; intro b hb
                rcases List.mem_cons.1 hb with rfl | hb
                · omega
                · exact h b hb
              obtain ⟨pre, b, post, rfl, h1, h2⟩ := ih this
              refine ⟨c :: pre, b, post, rfl, ?_, h2⟩
              intro e he
              rcases List.mem_cons.1 he with rfl | he
              · omega
              · exact h1 e he
        obtain ⟨y, hy⟩ := uvarintLoop_terminated pre b post h1 h2 0 0
        have e : (varint (pre ++ b :: post)).2 = (uvarintLoop 0 0 (pre ++ b :: post)).2 := rfl
        rw [e, hy]
        split
        · show -(((0 : Nat) : Int) + pre.length + 1) ≠ -1
          omega
        · show ((0 : Nat) : Int) + pre.length + 1 ≠ -1
          omega
    split
    · simp
    · simp

/-! ### VarBytes and VarString -/

theorem exact_takeBytes (bs : List Byte) {n : Int} (hn : n = bs.length) (hl : bs.length < 2 ^ 62) :
    Exact (Dec.takeBytes n) bs bs := (reads_takeBytes bs hn hl).1

theorem exact_varBytes {s : Slice Byte} (h : s.len < 2 ^ 62) :
    Exact Dec.varBytes (Wire.varBytes s) s.nonNil :=
  (exact_varInt _).bind (Exact.map (exact_takeBytes s.elems (ofNat_toInt64 (by omega)) h))

theorem exact_varString_any {s : GoString} (h : s.length < 2 ^ 62) :
    Exact Dec.varString (Wire.varString s) (sanitize s) := by
  refine (exact_varInt _).bind ?_
  intro d hd tail ht
  have hl : s.length ≤ d.rest.length := by rw [ht]; simp
  have hn : (Int64.ofNat s.length).toInt = s.length := ofNat_toInt64 (by omega)
  rw [hn, bind_ok (remains_ok hd (by omega))]
  have hr : Dec.runeLoop s.length d = .ok (sanitize s) d := by
    unfold Dec.runeLoop
    by_cases h0 : (s.length : Int) ≤ 0
    · have : s = [] := List.eq_nil_of_length_eq_zero (by omega)
      subst this
      exact expr_some (by simp [sanitize, runes, runesAux])
    · refine expr_some ?_
      rw [if_neg h0, goSlice_eq hd hl rfl, ht]
      simp [sanitize]
  rw [bind_ok hr, bind_ok (advance_eq hd s.length hl rfl)]
  rfl

theorem exact_varString {s : GoString} (h : s.length < 2 ^ 62) (hv : ValidUtf8 s) :
    Exact Dec.varString (Wire.varString s) s := by
  have := exact_varString_any h
  rwa [sanitize_valid hv] at this

/-! ### Writing to a writer that does not fail -/

/-- Over a reliable writer, `f` appends `bs` and leaves no error. -/
def Pours (f : Encoder → Encoder) (bs : List Byte) : Prop :=
  ∀ e, Reliable e → Reliable (f e) ∧ (f e).out = e.out ++ bs

theorem Emits.pours {f : Encoder → Encoder} {bs : List Byte} (h : Emits f bs) : Pours f bs :=
  fun e he => ⟨⟨(h.reliable he).1, by rw [(h.ran he.1).faults]; exact he.2⟩, (h.reliable he).2⟩

theorem Pours.comp {f g : Encoder → Encoder} {as bs : List Byte} (hf : Pours f as)
    (hg : Pours g bs) : Pours (fun e => g (f e)) (as ++ bs) := fun e he => by
  have h1 := hf e he
  have h2 := hg _ h1.1
  exact ⟨h2.1, by rw [h2.2, h1.2, List.append_assoc]⟩

theorem Pours.bytesOf {f : Encoder → Encoder} {bs : List Byte} (h : Pours f bs) :
    bytesOf f = bs := by
  have := (h (newEncoder fun _ => none) ⟨rfl, fun _ => rfl⟩).2
  simpa [newEncoder, Kafka.bytesOf] using this

theorem pours_write (c : List Byte) : Pours (fun e => e.targetWrite c) c := fun e he => by
  unfold Encoder.targetWrite
  dsimp only
  rw [he.2]
  exact ⟨⟨rfl, he.2⟩, rfl⟩

theorem emits_varInt (x : Int64) : Emits (fun e => e.putVarInt x) (Wire.varInt x) :=
  (Emits.single _).congr (putVarint_eq x)

theorem pours_varBytes (s : Slice Byte) : Pours (fun e => e.putVarBytes s) (Wire.varBytes s) :=
  fun e he => by
    have := ((emits_varInt (Int64.ofNat s.len)).pours.comp (pours_write s.elems)) e he
    unfold Encoder.putVarBytes
    dsimp only
    rw [he.1]
    exact this

theorem pours_runes (l : List Nat) : Pours (fun e => e.putRunes l) (l.flatMap encodeRune) := by
  induction l with
  | nil => exact fun e he => ⟨he, by simp [Encoder.putRunes]⟩
  | cons r l ih =>
    intro e he
    have h1 := pours_write (encodeRune r) e he
    have h2 := ih _ h1.1
    simp only [Encoder.putRunes]
    rw [h1.1.1]
    refine ⟨h2.1, ?_⟩
    have := h2.2
    rw [h1.2] at this
    simpa using this

/-- Any string: the length of the string itself, then its sanitized bytes. -/
theorem pours_varString_any (s : GoString) :
    Pours (fun e => e.putVarString s) (Wire.varInt (Int64.ofNat s.length) ++ sanitize s) :=
  fun e he => by
    have := ((emits_varInt (Int64.ofNat s.length)).pours.comp (pours_runes (runes s))) e he
    unfold Encoder.putVarString
    dsimp only
    rw [he.1]
    exact this

theorem pours_varString {s : GoString} (h : ValidUtf8 s) :
    Pours (fun e => e.putVarString s) (Wire.varString s) := by
  have := pours_varString_any s
  rwa [sanitize_valid h] at this

theorem sized_varInt (x : Int64) : Sized (Sizeof.varInt x) (Wire.varInt x) := by
  unfold Sizeof.varInt; rw [putVarint_eq]; rfl
theorem sized_varBytes (s : Slice Byte) : Sized (Sizeof.varBytes s) (Wire.varBytes s) :=
  (sized_varInt _).append rfl
theorem sized_varString (s : GoString) : Sized (Sizeof.varString s) (Wire.varString s) :=
  (sized_varInt _).append rfl

end Kafka
