import Verif.Props.Primitives

/-!
Property C08: exactly when reading a variable-length value reports that there is too little.
-/
namespace Kafka.Props

/-- A list has a first byte below 128, or all are above. -/
theorem firstLow (l : List Byte) : (∀ b ∈ l, 0x80 ≤ b.toNat) ∨
    ∃ pre b post, l = pre ++ b :: post ∧ (∀ b ∈ pre, 0x80 ≤ b.toNat) ∧ b.toNat < 0x80 := by
  induction l with
  | nil => exact .inl (by simp)
  | cons a l ih =>
    by_cases ha : a.toNat < 0x80
    · exact .inr ⟨[], a, l, rfl, by simp, ha⟩
    · rcases ih with h | ⟨pre, b, post, rfl, h1, h2⟩
      · exact .inl (by simp only [List.mem_cons, forall_eq_or_imp]; exact ⟨by omega, h⟩)
      · exact .inr ⟨a :: pre, b, post, rfl,
          by simp only [List.mem_cons, forall_eq_or_imp]; exact ⟨by omega, h1⟩, h2⟩

theorem varint_terminated {l pre post : List Byte} {b : Byte} (e : l = pre ++ b :: post)
    (h : ∀ b ∈ pre, 0x80 ≤ b.toNat) (hb : b.toNat < 0x80) : (varint l).2 ≠ 0 ∧ (varint l).2 ≠ -1 := by
  subst e
  obtain ⟨y, hy⟩ := uvarintLoop_terminated pre b post h hb 0 0
  have h0 : (varint (pre ++ b :: post)).2 = (uvarintLoop 0 0 (pre ++ b :: post)).2 := rfl
  rw [h0, hy]
  split <;> simp only <;> omega

/-- Exactly when `VarInt` returns an error, wherever the declared length is: when no byte from the position to the end of the
*buffer* ends a varint.  The error is then that of too little data. -/
theorem C08_varInt_exact (d : Decoder) (hd : d.Valid) :
    ((∃ e d', Dec.varInt d = .err e d') ↔ ∀ b ∈ d.raw.drop d.offset.toNat, 0x80 ≤ b.toNat) ∧
      ∀ e d', Dec.varInt d = .err e d' → isInsufficientDataError e = true := by
  have := hd.off_nonneg; have := hd.off_le; have := hd.len_le
  have hs : goSliceFrom d.raw d.offset = some (d.raw.drop d.offset.toNat) := by
    unfold goSliceFrom
    rw [if_pos (by omega)]
  unfold Dec.varInt
  rw [hs]
  rcases firstLow (d.raw.drop d.offset.toNat) with h | ⟨pre, b, post, e, h1, h2⟩
  · simp only [varint_unterminated _ h, if_true]
    exact ⟨⟨fun _ => h, fun _ => ⟨_, _, rfl⟩⟩, fun e d' he => by cases he; rfl⟩
  · obtain ⟨n1, n2⟩ := varint_terminated e h1 h2
    simp only [n1, n2, if_false]
    refine ⟨⟨fun ⟨_, _, h⟩ => (by cases h), fun h => ?_⟩, fun e d' he => by cases he⟩
    have := h b (by rw [e]; simp)
    omega

/-- So the truncated value is rejected exactly when the bytes that happen to lie behind the declared length do not end it. -/
theorem C08_varInt_stale_exact (x : Int64) (d : Decoder) (hd : d.Valid) (hp : d.rest <+: bytesOf (·.putVarInt x))
    (hne : d.rest ≠ bytesOf (·.putVarInt x)) :
    (∃ e d', Dec.varInt d = .err e d' ∧ isInsufficientDataError e = true) ↔
      ∀ b ∈ d.raw.drop d.length.toNat, 0x80 ≤ b.toNat := by
  have h0 := hd.off_nonneg; have h1 := hd.off_le; have h2 := hd.len_le
  have hsplit : d.raw.drop d.offset.toNat = d.rest ++ d.raw.drop d.length.toNat := by
    conv => lhs; rw [← List.take_append_drop d.length.toNat d.raw]
    rw [List.drop_append_of_le_length (by rw [List.length_take]; omega)]
    rfl
  have hrest : ∀ b ∈ d.rest, 0x80 ≤ b.toNat := by
    rw [(emits_varInt x).bytesOf] at hp hne
    obtain ⟨pre, b, h3, h4⟩ := base128_all_but_last (Wire.zigzag x.toInt)
    have hw : Wire.varInt x = pre ++ [b] := h3
    rw [hw] at hp hne
    have hlen : d.rest.length ≤ pre.length := by
      have h5 := hp.length_le
      rcases Nat.lt_or_ge pre.length d.rest.length with h | h
      · exact absurd (hp.eq_of_length (by simp at h5 ⊢; omega)) hne
      · exact h
    have h6 : d.rest <+: pre := List.prefix_of_prefix_length_le hp (List.prefix_append _ _) hlen
    exact fun c hc => h4 c (h6.subset hc)
  have he := C08_varInt_exact d hd
  rw [hsplit] at he
  constructor
  · rintro ⟨e, d', h, _⟩ b hb
    exact he.1.1 ⟨e, d', h⟩ b (List.mem_append_right _ hb)
  · intro h
    obtain ⟨e, d', h'⟩ := he.1.2 fun b hb => (List.mem_append.1 hb).elim (hrest b) (h b)
    exact ⟨e, d', h', he.2 e d' h'⟩

/-- The first byte of the varint of 64, before a stale byte that does not end it, and before one that does. -/
example : Dec.varInt { raw := [0x80, 0x90], length := 1, offset := 0 } =
      .err .shortBuffer { raw := [0x80, 0x90], length := 1, offset := 1 } ∧
    Dec.varInt { raw := [0x80, 0x01], length := 1, offset := 0 } =
      .ok 64 { raw := [0x80, 0x01], length := 1, offset := 2 } ∧
    bytesOf (·.putVarInt 64) = [0x80, 0x01] := by
  refine ⟨by decide, by decide, ?_⟩
  rw [(emits_varInt 64).bytesOf]
  have : Wire.zigzag (64 : Int64).toInt = 128 := by decide
  unfold Wire.varInt
  rw [this]
  simp [Wire.base128]

end Kafka.Props
