import Verif.Props.VarInt
/-!
Property C74: `Discard` and `Reset`.
-/
namespace Kafka.Props

open Kafka

/-- The full claim about `Discard`: if there are `n` bytes they are skipped and what follows is read next; otherwise the
error is recognised by `IsInsufficientDataError` and nothing is skipped; it does not move back. -/
def C74_statement : Prop :=
  ∀ (d : Decoder) (n : Int), d.Valid → -2 ^ 63 ≤ n → n < 2 ^ 63 →
    if n ≤ d.rest.length then ∃ d', Dec.discard n d = .ok () d' ∧ d'.Valid ∧ d'.rest = d.rest.drop n.toNat
    else ∃ e, Dec.discard n d = .err e d ∧ isInsufficientDataError e = true

/-- `Discard`, of any number of bytes: it moves by as much, back if the number is negative. -/
theorem C74_discard (d : Decoder) (n : Int) (hd : d.Valid) (h1 : -2 ^ 63 ≤ n) :
    Dec.discard n d = if n ≤ d.rest.length then .ok () (at_ d (d.offset + n)) else .err .shortBuffer d := by
  have := hd.off_nonneg; have := hd.off_le; have := hd.len_le; have := hd.small
  have hr := rest_len hd
  have h := remains_at (d := d) (i := n) (by omega) (by omega) (by omega) (by omega)
  unfold Dec.discard
  by_cases hn : n ≤ d.rest.length
  · rw [if_neg (by omega)] at h
    rw [if_pos hn, run_ok h, advance_at (by omega) (by omega)]
  · rw [if_pos (by omega)] at h
    rw [if_neg hn, run_err h]

/-- True of numbers that are not negative. -/
theorem C74_partial (d : Decoder) (n : Int) (hd : d.Valid) (h0 : 0 ≤ n) :
    if n ≤ d.rest.length then ∃ d', Dec.discard n d = .ok () d' ∧ d'.Valid ∧ d'.rest = d.rest.drop n.toNat
    else ∃ e, Dec.discard n d = .err e d ∧ isInsufficientDataError e = true := by
  have := hd.off_nonneg; have := hd.off_le; have := hd.len_le; have := hd.small
  have hr := rest_len hd
  rw [C74_discard d n hd (by omega)]
  split
  · refine ⟨_, rfl, ⟨by simp only [at_]; omega, by simp only [at_]; omega, hd.len_le, hd.small⟩, ?_⟩
    simp only [Decoder.rest, at_]
    rw [show (d.offset + n).toNat = d.offset.toNat + n.toNat by omega, List.drop_drop]
  · exact ⟨_, rfl, rfl⟩

/-- Of a negative number it is false wherever the decoder stands: what has been read is read again, or the position is
before the buffer, and the next read of a fixed-size value panics. -/
theorem C74_negative (d : Decoder) (n : Int) (hd : d.Valid) (h1 : -2 ^ 62 ≤ n) (h0 : n < 0) :
    ∃ d', Dec.discard n d = .ok () d' ∧ d'.offset < d.offset ∧ (d.offset + n < 0 → Dec.bool d' = .panic) := by
  have := hd.off_nonneg; have := hd.off_le; have := hd.len_le; have := hd.small
  have hr := rest_len hd
  refine ⟨at_ d (d.offset + n), by rw [C74_discard d n hd (by omega), if_pos (by omega)], by simp only [at_]; omega, fun hn => ?_⟩
  have h := remains_at (d := at_ d (d.offset + n)) (i := 1) (by simp only [at_]; omega) (by simp only [at_]; omega)
    (by simp only [at_]; omega) (by simp only [at_]; omega)
  rw [if_neg (by simp only [at_]; omega)] at h
  unfold Dec.bool
  rw [run_ok h]
  refine run_panic ?_
  have hi : goIndex d.raw (d.offset + n) = none := by
    unfold goIndex
    rw [if_neg (by omega)]
  unfold Dec.expr
  simp only [at_, hi]

theorem C74_fails : ¬ C74_statement := fun h => by
  have h := h ⟨[1, 2], 2, 1⟩ (-1) ⟨by decide, by decide, by decide, by decide⟩ (by decide) (by decide)
  rw [if_pos (by decide), C74_discard _ _ ⟨by decide, by decide, by decide, by decide⟩ (by decide), if_pos (by decide)] at h
  obtain ⟨d', h, _, hr⟩ := h
  simp only [Res.ok.injEq, true_and] at h
  subst h
  exact absurd hr (by decide)

/-- After `Reset`, whatever was read before, the decoder is a new one for the same buffer with the length given. -/
theorem C74_reset (d : Decoder) (length : Int) : Dec.reset d length = newDecoder d.raw length := rfl

/-- So what is in the first `length` bytes of the buffer is read next. -/
theorem C74_reset_rest (d : Decoder) (length : Int) (h0 : 0 ≤ length) (h1 : length ≤ d.raw.length) (hs : d.raw.length < 2 ^ 62) :
    (Dec.reset d length).Valid ∧ (Dec.reset d length).rest = d.raw.take length.toNat :=
  ⟨⟨by simp [Dec.reset], by simpa [Dec.reset] using h0, h1, hs⟩, by simp [Dec.reset, Decoder.rest]⟩

/-- Three bytes, of which one is skipped, and a decoder that has read two bytes of four and is set back. -/
example : Dec.discard 1 (newDecoder [7, 8, 9] 3) = .ok () ⟨[7, 8, 9], 3, 1⟩ ∧
    Dec.discard 4 (newDecoder [7, 8, 9] 3) = .err .shortBuffer (newDecoder [7, 8, 9] 3) ∧
    (Dec.reset ⟨[7, 8, 9, 10], 4, 2⟩ 3).rest = [7, 8, 9] := ⟨by decide +kernel, by decide +kernel, by decide +kernel⟩

end Kafka.Props
