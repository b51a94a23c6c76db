import Verif.Message.VarDec
/-!
Variable-length values cut short at the end of the buffer.
-/
namespace Kafka

/-- The declared length is the whole buffer: no stale bytes follow. -/
def Decoder.Full (d : Decoder) : Prop := d.length = d.raw.length

/-- Given only a strict prefix of `bs`, and no stale bytes after it, `m` reports
insufficient data. -/
def Short {α : Type} (m : Dec α) (bs : List Byte) : Prop :=
  ∀ d, d.Valid → d.Full → d.rest <+: bs → d.rest ≠ bs → ∃ d', m d = .err .shortBuffer d'

theorem Reads.short {α : Type} {m : Dec α} {bs : List Byte} {a : α} (h : Reads m bs a) :
    Short m bs := fun d hd _ h1 h2 => h.2 d hd h1 h2

theorem Short.bind {α β : Type} {m : Dec α} {k : α → Dec β} {as bs : List Byte} {a : α}
    (hm : Exact m as a) (hs : Short m as) (hk : Short (k a) bs) : Short (m >>= k) (as ++ bs) := by
  intro d hd hf hp hne
  by_cases h : d.rest <+: as ∧ d.rest ≠ as
  · obtain ⟨d', h'⟩ := hs d hd hf h.1 h.2
    exact ⟨d', bind_err h'⟩
  · have : as <+: d.rest := by
      rcases List.prefix_or_prefix_of_prefix hp (List.prefix_append as bs) with h' | h'
      · have : d.rest = as := by
          apply Classical.byContradiction; intro hc; exact h ⟨h', hc⟩
        rw [this]; exact List.prefix_rfl
      · exact h'
    obtain ⟨t, ht⟩ := this
    have hl : as.length ≤ d.rest.length := by rw [← ht]; simp
    rw [bind_ok (hm d hd t ht.symm)]
    apply hk _ (Decoder.skip_valid hd hl)
    · exact hf
    · rw [Decoder.skip_rest hd, ← ht]
      rw [← ht] at hp
      simpa using hp
    · rw [Decoder.skip_rest hd, ← ht]
      rw [← ht] at hne
      simpa using hne

theorem Short.varInt (x : Int64) : Short Dec.varInt (Wire.varInt x) :=
  fun d hd hf hp hne => ⟨_, short_varInt x d hd hf hp hne⟩

theorem Short.map {α β : Type} {m : Dec α} {g : α → β} {as : List Byte} (hs : Short m as) :
    Short (m >>= fun x => Pure.pure (g x)) as := by
  intro d hd hf hp hne
  obtain ⟨d', h⟩ := hs d hd hf hp hne
  exact ⟨d', bind_err h⟩

theorem Short.varBytes {s : Slice Byte} (h : s.len < 2 ^ 62) :
    Short Dec.varBytes (Wire.varBytes s) :=
  have h' : s.elems.length < 2 ^ 62 := h
  Short.bind (exact_varInt _) (Short.varInt _)
    (Short.map (reads_takeBytes s.elems (ofNat_toInt64 (n := s.elems.length) (by omega)) h').short)

theorem Short.varString {s : GoString} (h : s.length < 2 ^ 62) :
    Short Dec.varString (Wire.varString s) := by
  refine Short.bind (exact_varInt _) (Short.varInt _) ?_
  intro d hd _ hp hne
  have h1 := hp.length_le
  have h2 : d.rest.length ≠ s.length := fun hc => hne (hp.eq_of_length hc)
  refine ⟨d, bind_err (remains_err hd ?_)⟩
  rw [ofNat_toInt64 (by omega)]
  omega

theorem base128_length (n k : Nat) (h : n < 128 ^ (k + 1)) : (Wire.base128 n).length ≤ k + 1 := by
  induction k generalizing n with
  | zero => rw [Wire.base128, dif_pos (by simpa using h)]; simp
  | succ k ih =>
    rw [Wire.base128]
    split
    · simp
    · rw [List.length_cons]
      have := ih (n / 128) (by
        rw [Nat.div_lt_iff_lt_mul (by omega)]
        rwa [Nat.pow_succ] at h)
      omega

theorem varInt_length (x : Int64) : (Wire.varInt x).length ≤ 10 := by
  apply base128_length _ 9
  have := int64_bounds x
  unfold Wire.zigzag
  split <;> omega

end Kafka
