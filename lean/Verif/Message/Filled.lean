import Verif.Message.Longer
/-!
Decoding with zeros behind.
-/
namespace Kafka

/-- There are bytes enough for `m`: with `Z` zeros, and nothing else; with `N` zeros behind any other bytes. -/
structure Filled {α : Type} (Z N : Nat) (m : Dec α) : Prop where
  zeros : ∀ (d : Decoder) k, d.Valid → Z ≤ k → d.rest = List.replicate k (0 : Byte) →
    m d = .panic ∨ ∃ a n, m d = .ok a (d.skip n) ∧ n ≤ Z
  run : ∀ (d : Decoder) bs k, d.Valid → N ≤ k → d.rest = bs ++ List.replicate k (0 : Byte) →
    m d = .panic ∨ ∃ a n, m d = .ok a (d.skip n) ∧ n ≤ bs.length + N

namespace Filled
variable {α β : Type} {Z N Z' N' : Nat}

theorem mono {m : Dec α} (h : Filled Z N m) (hZ : Z ≤ Z') (hN : N ≤ N') : Filled Z' N' m where
  zeros d k hd hk hr := by
    rcases h.zeros d k hd (by omega) hr with h1 | ⟨a, n, h1, h2⟩
    · exact .inl h1
    · exact .inr ⟨a, n, h1, by omega⟩
  run d bs k hd hk hr := by
    rcases h.run d bs k hd (by omega) hr with h1 | ⟨a, n, h1, h2⟩
    · exact .inl h1
    · exact .inr ⟨a, n, h1, by omega⟩

theorem pure (a : α) : Filled Z N (Pure.pure a : Dec α) where
  zeros d _ _ _ _ := .inr ⟨a, 0, by simp [Pure.pure, Dec.pure], by omega⟩
  run d _ _ _ _ _ := .inr ⟨a, 0, by simp [Pure.pure, Dec.pure], by omega⟩

theorem crash : Filled Z N (Dec.crash : Dec α) where
  zeros _ _ _ _ _ := .inl rfl
  run _ _ _ _ _ _ := .inl rfl

theorem runBind {m : Dec α} {f : α → Dec β} (hm : Filled Z N m) (hf : ∀ a, Filled Z' N' (f a)) (d : Decoder) (bs : List Byte)
    (k : Nat) (hd : d.Valid) (hk : max (N + Z') N' ≤ k) (hr : d.rest = bs ++ List.replicate k (0 : Byte)) :
    (m >>= f) d = .panic ∨ ∃ a n, (m >>= f) d = .ok a (d.skip n) ∧ n ≤ bs.length + max (N + Z') N' := by
  rcases hm.run d bs k hd (by omega) hr with h1 | ⟨a, n, h1, h2⟩
  · exact .inl (bind_panic h1)
  · have hl : n ≤ d.rest.length := by rw [hr]; simp; omega
    have hv := Decoder.skip_valid hd hl
    by_cases hn : n ≤ bs.length
    · have hs : (d.skip n).rest = bs.drop n ++ List.replicate k (0 : Byte) := by
        rw [Decoder.skip_rest hd, hr, List.drop_append_of_le_length hn]
      rcases (hf a).run (d.skip n) _ k hv (by omega) hs with h3 | ⟨b, n', h3, h4⟩
      · exact .inl (by rw [bind_ok h1, h3])
      · refine .inr ⟨b, n + n', by rw [bind_ok h1, h3, Decoder.skip_skip], ?_⟩
        simp at h4
        omega
    · have hs : (d.skip n).rest = List.replicate (k - (n - bs.length)) (0 : Byte) := by
        rw [Decoder.skip_rest hd, hr, List.drop_append, List.drop_eq_nil_of_le (by omega), List.nil_append,
          List.drop_replicate]
      rcases (hf a).zeros (d.skip n) _ hv (by omega) hs with h3 | ⟨b, n', h3, h4⟩
      · exact .inl (by rw [bind_ok h1, h3])
      · exact .inr ⟨b, n + n', by rw [bind_ok h1, h3, Decoder.skip_skip], by omega⟩

theorem bind {m : Dec α} {f : α → Dec β} (hm : Filled Z N m) (hf : ∀ a, Filled Z' N' (f a)) :
    Filled (Z + Z') (max (N + Z') N') (m >>= f) where
  zeros d k hd hk hr := by
    rcases hm.zeros d k hd (by omega) hr with h1 | ⟨a, n, h1, h2⟩
    · exact .inl (bind_panic h1)
    · have hl : n ≤ d.rest.length := by rw [hr]; simp; omega
      have hs : (d.skip n).rest = List.replicate (k - n) (0 : Byte) := by
        rw [Decoder.skip_rest hd, hr, List.drop_replicate]
      rcases (hf a).zeros (d.skip n) _ (Decoder.skip_valid hd hl) (by omega) hs with h3 | ⟨b, n', h3, h4⟩
      · exact .inl (by rw [bind_ok h1, h3])
      · exact .inr ⟨b, n + n', by rw [bind_ok h1, h3, Decoder.skip_skip], by omega⟩
  run := runBind hm hf

theorem ite {c : Prop} [Decidable c] {m k : Dec α} (hm : Filled Z N m) (hk : Filled Z N k) :
    Filled Z N (if c then m else k) := by
  split <;> assumption

theorem fixed {m : Dec α} {w : Nat} {g : List Byte → Option α} (hm : ∀ d, d.Valid → m d = (fixedOut w g d.rest).lift d) :
    Filled w w m := by
  have key : ∀ d : Decoder, d.Valid → w ≤ d.rest.length → m d = .panic ∨ ∃ a n, m d = .ok a (d.skip n) ∧ n ≤ w := by
    intro d hd hk
    rw [hm d hd]
    unfold fixedOut
    rw [if_neg (by omega)]
    cases g d.rest with
    | none => exact .inl rfl
    | some a => exact .inr ⟨a, w, rfl, Nat.le_refl _⟩
  constructor
  · intro d k hd hk hr
    exact key d hd (by rw [hr]; simp; omega)
  · intro d bs k hd hk hr
    rcases key d hd (by rw [hr]; simp; omega) with h | ⟨a, n, h1, h2⟩
    · exact .inl h
    · exact .inr ⟨a, n, h1, by omega⟩

theorem bool : Filled 1 1 Dec.bool := fixed bool_spec
theorem int8 : Filled 1 1 Dec.int8 := fixed int8_spec
theorem int16 : Filled 2 2 Dec.int16 := fixed int16_spec
theorem int32 : Filled 4 4 Dec.int32 := fixed int32_spec
theorem int64 : Filled 8 8 Dec.int64 := fixed int64_spec

theorem takeBytes {n : Int} (hn : -(2 ^ 63) ≤ n) {N : Nat} (h : n ≤ N) : Filled N N (Dec.takeBytes n) := by
  have key : ∀ d : Decoder, d.Valid → N ≤ d.rest.length →
      Dec.takeBytes n d = .panic ∨ ∃ a k, Dec.takeBytes n d = .ok a (d.skip k) ∧ k ≤ N := by
    intro d hd hk
    rw [takeBytes_spec hn d hd]
    unfold takeOut
    split
    · exact .inl rfl
    · rw [if_neg (by omega)]
      exact .inr ⟨_, n.toNat, rfl, by omega⟩
  constructor
  · intro d k hd hk hr
    exact key d hd (by rw [hr]; simp; omega)
  · intro d bs k hd hk hr
    rcases key d hd (by rw [hr]; simp; omega) with h | ⟨a, n, h1, h2⟩
    · exact .inl h
    · exact .inr ⟨a, n, h1, by omega⟩

theorem loop {f : Dec α} (h : Filled Z N f) : ∀ n, Filled (n * Z) (N + n * Z) (Dec.loop f n)
  | 0 => pure []
  | n + 1 => (h.bind fun _ => (loop h n).bind fun _ => pure (Z := 0) (N := 0) _).mono (by rw [Nat.succ_mul]; omega)
      (by rw [Nat.succ_mul]; omega)

/-- What comes behind a length: of zeros, it is zero. -/
theorem counted {w : Nat} {m : Dec α} {z : α} {f : α → Dec β} (hm : Filled w w m)
    (hz : ∀ (d : Decoder) k, d.Valid → w ≤ k → d.rest = List.replicate k (0 : Byte) → m d = .ok z (d.skip w))
    (h0 : Filled 0 0 (f z)) (hf : ∀ a, Filled Z' N' (f a)) : Filled w (max (w + Z') N') (m >>= f) where
  zeros d k hd hk hr := by
    have h1 := hz d k hd hk hr
    have hl : w ≤ d.rest.length := by rw [hr]; simp; omega
    have hs : (d.skip w).rest = List.replicate (k - w) (0 : Byte) := by
      rw [Decoder.skip_rest hd, hr, List.drop_replicate]
    rcases h0.zeros (d.skip w) _ (Decoder.skip_valid hd hl) (by omega) hs with h3 | ⟨b, n', h3, h4⟩
    · exact .inl (by rw [bind_ok h1, h3])
    · exact .inr ⟨b, w + n', by rw [bind_ok h1, h3, Decoder.skip_skip], by omega⟩
  run := runBind hm hf

theorem int16_zeros (d : Decoder) (k : Nat) (hd : d.Valid) (hk : 2 ≤ k) (hr : d.rest = List.replicate k (0 : Byte)) :
    Dec.int16 d = .ok 0 (d.skip 2) := by
  obtain ⟨j, rfl⟩ : ∃ j, k = 2 + j := ⟨k - 2, by omega⟩
  rw [int16_spec d hd, hr, ← List.replicate_append_replicate]
  unfold fixedOut
  rw [if_neg (by simp)]
  simp only []
  rw [beUint16_append _ _ (by simp)]
  rfl

theorem int32_zeros (d : Decoder) (k : Nat) (hd : d.Valid) (hk : 4 ≤ k) (hr : d.rest = List.replicate k (0 : Byte)) :
    Dec.int32 d = .ok 0 (d.skip 4) := by
  obtain ⟨j, rfl⟩ : ∃ j, k = 4 + j := ⟨k - 4, by omega⟩
  rw [int32_spec d hd, hr, ← List.replicate_append_replicate]
  unfold fixedOut
  rw [if_neg (by simp)]
  simp only []
  rw [beUint32_append _ _ (by simp)]
  rfl

theorem string : Filled 2 (2 + 2 ^ 15) Dec.string :=
  (counted (Z' := 2 ^ 15) (N' := 2 ^ 15) int16 int16_zeros (ite (pure _) (takeBytes (by decide) (by decide)))
    fun n => ite (pure _) (takeBytes (by have := int16_bounds n; omega) (by have := int16_bounds n; omega))).mono
    (by omega) (by omega)
theorem bytes : Filled 4 (4 + 2 ^ 31) Dec.bytes :=
  (counted (Z' := 2 ^ 31) (N' := 2 ^ 31) int32 int32_zeros
    (((takeBytes (N := 0) (by decide) (by decide)).bind fun _ => pure (Z := 0) (N := 0) _).mono (by omega) (by omega))
    fun n => ((takeBytes (N := 2 ^ 31) (by have := int32_bounds n; omega) (by have := int32_bounds n; omega)).bind
      fun _ => pure (Z := 0) (N := 0) _).mono (by omega) (by omega)).mono (by omega) (by omega)

theorem bindLength {f : Int → Dec β} (h0 : Filled 0 0 (f 0)) (h : ∀ n : Int32, Filled Z' N' (f n.toInt)) :
    Filled 4 (max (4 + Z') N') (Dec.arrayLength >>= f) := by
  have e : (Dec.arrayLength >>= f) = (Dec.int32 >>= fun n => f n.toInt) := by
    funext d
    cases hd : Dec.int32 d with
    | ok n d' => rw [bind_ok hd, bind_ok (show Dec.arrayLength d = .ok n.toInt d' from bind_ok hd)]
    | err e d' => rw [bind_err hd, bind_err (show Dec.arrayLength d = .err e d' from bind_err hd)]
    | panic => rw [bind_panic hd, bind_panic (show Dec.arrayLength d = .panic from bind_panic hd)]
  rw [e]
  exact counted int32 int32_zeros h0 h

theorem count (n : Int32) : n.toInt.toNat ≤ 2 ^ 31 := by have := int32_bounds n; omega

theorem arrayOf {f : Dec α} (h : Filled Z N f) : Filled 4 (4 + N + 2 ^ 31 * Z) (Dec.arrayOf f) :=
  (bindLength (ite (pure _) (ite crash (((show Filled 0 0 (Dec.loop f 0) from pure []).bind fun _ => pure (Z := 0) (N := 0) _).mono (by omega) (by omega))))
    fun n => ite (pure _) (ite crash
      (((loop h _).mono (Nat.mul_le_mul_right _ (count n)) (Nat.add_le_add_left (Nat.mul_le_mul_right _ (count n)) _)).bind
        fun _ => pure (Z := 0) (N := 0) _))).mono (by omega) (by omega)

theorem structs {f : Dec α} (h : Filled Z N f) (old : Slice α) : Filled 4 (4 + N + 2 ^ 31 * Z) (Dec.structs f old) :=
  (bindLength (ite (((show Filled 0 0 (Dec.loop f 0) from pure []).bind fun _ => pure (Z := 0) (N := 0) _).mono (by omega) (by omega)) (pure _))
    fun n => ite
      (((loop h _).mono (Nat.mul_le_mul_right _ (count n)) (Nat.add_le_add_left (Nat.mul_le_mul_right _ (count n)) _)).bind
        fun _ => pure (Z := 0) (N := 0) _) (pure _)).mono (by omega) (by omega)

theorem int32Array : Filled 4 (8 + 2 ^ 33) Dec.int32Array := int32.arrayOf.mono (by decide) (by decide)
theorem int64Array : Filled 4 (12 + 2 ^ 34) Dec.int64Array := int64.arrayOf.mono (by decide) (by decide)
theorem stringArray : Filled 4 (6 + 2 ^ 15 + 2 ^ 32) Dec.stringArray := string.arrayOf.mono (by decide) (by decide)
theorem nullableString : Filled 2 (2 + 2 ^ 15) Dec.nullableString :=
  (string.bind fun _ => pure (Z := 0) (N := 0) _).mono (by decide) (by decide)

end Filled

/-- The same of a statement of `Decode`, whatever the receiver. -/
def FilledStep {τ : Type} (Z N : Nat) (s : τ → Dec τ) : Prop := ∀ t, Filled Z N (s t)

namespace FilledStep
variable {τ α : Type} {Z N Z' N' : Nat}
theorem mono {s : τ → Dec τ} (h : FilledStep Z N s) (hZ : Z ≤ Z') (hN : N ≤ N') : FilledStep Z' N' s :=
  fun t => (h t).mono hZ hN
theorem nop : FilledStep Z N (Dec.nop : τ → Dec τ) := fun _ => .pure _
theorem andThen {s s' : τ → Dec τ} (h : FilledStep Z N s) (h' : FilledStep Z' N' s') :
    FilledStep (Z + Z') (max (N + Z') N') (s ;> s') := fun t => (h t).bind h'
theorem field {m : Dec α} {set : τ → α → τ} (h : Filled Z N m) : FilledStep Z N (Dec.field m set) :=
  fun _ => (h.bind fun _ => .pure (Z := 0) (N := 0) _).mono (by omega) (by omega)
theorem structs {f : Dec α} {get : τ → Slice α} {set : τ → Slice α → τ} (h : Filled Z N f) :
    FilledStep 4 (4 + N + 2 ^ 31 * Z) (Dec.fieldStructs f get set) :=
  fun _ => ((h.structs _).bind fun _ => .pure (Z := 0) (N := 0) _).mono (by omega) (by omega)
theorem onlyIf {c : Prop} [Decidable c] {s : τ → Dec τ} (h : FilledStep Z N s) : FilledStep Z N (Dec.onlyIf c s) :=
  fun t => .ite (h t) (.pure _)
end FilledStep

end Kafka
