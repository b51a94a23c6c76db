import Verif.Message.StepLemmas
/-!
Decoding with more bytes behind.
-/
namespace Kafka

/-- What `m` makes of some bytes, be it a value or a panic, it makes of them when there are more behind; where it fails, it takes
more bytes than there are to succeed. -/
structure Longer {α : Type} (m : Dec α) : Prop where
  ok : ∀ (d d2 : Decoder) tail, d.Valid → d2.Valid → d2.rest = d.rest ++ tail → ∀ a d', m d = .ok a d' →
    ∃ n, n ≤ d.rest.length ∧ d' = d.skip n ∧ m d2 = .ok a (d2.skip n)
  panic : ∀ (d d2 : Decoder) tail, d.Valid → d2.Valid → d2.rest = d.rest ++ tail → m d = .panic → m d2 = .panic
  err : ∀ (d d2 : Decoder) tail, d.Valid → d2.Valid → d2.rest = d.rest ++ tail → ∀ e d', m d = .err e d' →
    ∀ a n, m d2 = .ok a (d2.skip n) → d.rest.length < n
  short : ∀ (d : Decoder), d.Valid → ∀ e d', m d = .err e d' → e = .shortBuffer

theorem Decoder.skip_inj {d : Decoder} {n k : Nat} (h : d.skip n = d.skip k) : n = k := by
  have : d.offset + (n : Int) = d.offset + (k : Int) := congrArg Decoder.offset h
  omega

namespace Longer
variable {α β : Type}

theorem pure (a : α) : Longer (Pure.pure a : Dec α) where
  ok d d2 tail _ _ _ a' d' h := by
    have e : Res.ok a d = .ok a' d' := h
    obtain ⟨rfl, rfl⟩ := Res.ok.inj e
    exact ⟨0, Nat.zero_le _, by simp, by simp [Pure.pure, Dec.pure]⟩
  panic d d2 tail _ _ _ h := by cases (h : Res.ok a d = .panic)
  err d d2 tail _ _ _ e d' h := by cases (h : Res.ok a d = .err e d')
  short d _ e d' h := by cases (h : Res.ok a d = .err e d')

theorem crash : Longer (Dec.crash : Dec α) where
  ok _ _ _ _ _ _ _ _ h := by cases h
  panic _ _ _ _ _ _ _ := rfl
  err _ _ _ _ _ _ _ _ h := by cases h
  short _ _ _ _ h := by cases h

theorem bind {m : Dec α} {k : α → Dec β} (hm : Longer m) (hk : ∀ a, Longer (k a)) : Longer (m >>= k) where
  ok d d2 tail hd hd2 hr b d' h := by
    cases hmd : m d with
    | err e d1 => rw [bind_err hmd] at h; cases h
    | panic => rw [bind_panic hmd] at h; cases h
    | ok a d1 =>
      rw [bind_ok hmd] at h
      obtain ⟨n, h1, rfl, h3⟩ := hm.ok d d2 tail hd hd2 hr a d1 hmd
      have hl : n ≤ d2.rest.length := by rw [hr, List.length_append]; omega
      obtain ⟨n', h4, rfl, h6⟩ := (hk a).ok (d.skip n) (d2.skip n) tail (Decoder.skip_valid hd h1)
        (Decoder.skip_valid hd2 hl) (by rw [Decoder.skip_rest hd2, Decoder.skip_rest hd, hr,
          List.drop_append_of_le_length h1]) b d' h
      refine ⟨n + n', ?_, by rw [Decoder.skip_skip], by rw [bind_ok h3, h6, Decoder.skip_skip]⟩
      rw [Decoder.skip_rest hd, List.length_drop] at h4
      omega
  panic d d2 tail hd hd2 hr h := by
    cases hmd : m d with
    | err e d1 => rw [bind_err hmd] at h; cases h
    | panic => exact bind_panic (hm.panic d d2 tail hd hd2 hr hmd)
    | ok a d1 =>
      rw [bind_ok hmd] at h
      obtain ⟨n, h1, rfl, h3⟩ := hm.ok d d2 tail hd hd2 hr a d1 hmd
      have hl : n ≤ d2.rest.length := by rw [hr, List.length_append]; omega
      rw [bind_ok h3]
      exact (hk a).panic (d.skip n) (d2.skip n) tail (Decoder.skip_valid hd h1) (Decoder.skip_valid hd2 hl)
        (by rw [Decoder.skip_rest hd2, Decoder.skip_rest hd, hr, List.drop_append_of_le_length h1]) h
  err d d2 tail hd hd2 hr e d' h b n h2 := by
    cases hm2 : m d2 with
    | err e' d1 => rw [bind_err hm2] at h2; cases h2
    | panic => rw [bind_panic hm2] at h2; cases h2
    | ok a d1 =>
      rw [bind_ok hm2] at h2
      obtain ⟨n1, h3, rfl, _⟩ := hm.ok d2 d2 [] hd2 hd2 (by simp) a d1 hm2
      have hv := Decoder.skip_valid hd2 h3
      obtain ⟨n2, _, h4, _⟩ := (hk a).ok (d2.skip n1) (d2.skip n1) [] hv hv (by simp) b _ h2
      rw [Decoder.skip_skip] at h4
      obtain rfl := Decoder.skip_inj h4
      cases hmd : m d with
      | panic => rw [bind_panic hmd] at h; cases h
      | err e' d1 =>
        have := hm.err d d2 tail hd hd2 hr e' d1 hmd a n1 hm2
        omega
      | ok a' d1 =>
        obtain ⟨n', h5, rfl, h6⟩ := hm.ok d d2 tail hd hd2 hr a' d1 hmd
        rw [hm2] at h6
        obtain ⟨rfl, h7⟩ := Res.ok.inj h6
        obtain rfl := Decoder.skip_inj h7
        rw [bind_ok hmd] at h
        have := (hk a).err (d.skip n1) (d2.skip n1) tail (Decoder.skip_valid hd h5) hv
          (by rw [Decoder.skip_rest hd2, Decoder.skip_rest hd, hr, List.drop_append_of_le_length h5]) e d' h b n2
          (by rw [h2, Decoder.skip_skip])
        rw [Decoder.skip_rest hd, List.length_drop] at this
        omega
  short d hd e d' h := by
    cases hmd : m d with
    | panic => rw [bind_panic hmd] at h; cases h
    | err e' d1 =>
      rw [bind_err hmd] at h
      cases h
      exact hm.short d hd e d' hmd
    | ok a d1 =>
      obtain ⟨n, h1, rfl, _⟩ := hm.ok d d [] hd hd (by simp) a d1 hmd
      rw [bind_ok hmd] at h
      exact (hk a).short _ (Decoder.skip_valid hd h1) e d' h

theorem ite {c : Prop} [Decidable c] {m k : Dec α} (hm : Longer m) (hk : Longer k) : Longer (if c then m else k) := by
  split <;> assumption

/-- For what is a function of the bytes. -/
theorem of_out {m : Dec α} {f : List Byte → POut α} (hm : ∀ d, d.Valid → m d = (f d.rest).lift d)
    (hu : ∀ bs, (f bs).used ≤ bs.length) (hf : ∀ bs t, (∀ e n, f bs ≠ .err e n) → f (bs ++ t) = f bs)
    (he : ∀ bs t e k a n, f bs = .err e k → f (bs ++ t) = .ok a n → bs.length < n)
    (hs : ∀ bs e k, f bs = .err e k → e = .shortBuffer) : Longer m where
  ok d d2 tail hd hd2 hr a d' h := by
    rw [hm d hd] at h
    have hu' := hu d.rest
    cases hfd : f d.rest with
    | err e n => rw [hfd] at h; cases h
    | panic => rw [hfd] at h; cases h
    | ok a' n =>
      rw [hfd] at h hu'
      obtain ⟨rfl, rfl⟩ := Res.ok.inj h
      refine ⟨n, hu', rfl, ?_⟩
      rw [hm d2 hd2, hr, hf _ _ (by rw [hfd]; intro e k hc; cases hc), hfd]
      rfl
  panic d d2 tail hd hd2 hr h := by
    rw [hm d hd] at h
    cases hfd : f d.rest with
    | err e n => rw [hfd] at h; cases h
    | ok a' n => rw [hfd] at h; cases h
    | panic =>
      rw [hm d2 hd2, hr, hf _ _ (by rw [hfd]; intro e k hc; cases hc), hfd]
      rfl
  err d d2 tail hd hd2 hr e d' h a n h2 := by
    rw [hm d hd] at h
    rw [hm d2 hd2, hr] at h2
    cases hfd : f d.rest with
    | panic => rw [hfd] at h; cases h
    | ok a' n => rw [hfd] at h; cases h
    | err e' k =>
      cases hf2 : f (d.rest ++ tail) with
      | panic => rw [hf2] at h2; cases h2
      | err e' k => rw [hf2] at h2; cases h2
      | ok a' n' =>
        rw [hf2] at h2
        obtain ⟨_, h3⟩ := Res.ok.inj h2
        obtain rfl := Decoder.skip_inj h3
        exact he _ _ _ _ _ _ hfd hf2
  short d hd e d' h := by
    rw [hm d hd] at h
    cases hfd : f d.rest with
    | panic => rw [hfd] at h; cases h
    | ok a' n => rw [hfd] at h; cases h
    | err e' k => rw [hfd] at h; cases h; exact hs _ _ _ hfd

theorem fixed {m : Dec α} {w : Nat} {g : List Byte → Option α} (hm : ∀ d, d.Valid → m d = (fixedOut w g d.rest).lift d)
    (hg : ∀ bs t : List Byte, w ≤ bs.length → g (bs ++ t) = g bs) : Longer m := by
  refine of_out hm (fun bs => ?_) (fun bs t h => ?_) (fun bs t e k a n h1 h2 => ?_) fun bs e k h => ?_
  · unfold fixedOut
    split
    · simp [POut.used]
    · split <;> simp [POut.used]; omega
  · unfold fixedOut at h ⊢
    by_cases hl : bs.length < w
    · rw [if_pos hl] at h; exact absurd rfl (h _ _)
    · rw [if_neg hl, if_neg (by rw [List.length_append]; omega), hg bs t (by omega)]
  · unfold fixedOut at h1 h2
    by_cases hl : bs.length < w
    · by_cases hl2 : (bs ++ t).length < w
      · rw [if_pos hl2] at h2; cases h2
      · rw [if_neg hl2] at h2
        cases hgt : g (bs ++ t) with
        | none => rw [hgt] at h2; cases h2
        | some x => rw [hgt] at h2; cases h2; exact hl
    · rw [if_neg hl] at h1
      cases hgb : g bs with
      | none => rw [hgb] at h1; cases h1
      | some x => rw [hgb] at h1; cases h1
  · unfold fixedOut at h
    by_cases hl : bs.length < w
    · rw [if_pos hl] at h; cases h; rfl
    · rw [if_neg hl] at h
      cases hgb : g bs with
      | none => rw [hgb] at h; cases h
      | some x => rw [hgb] at h; cases h

theorem get0 {γ : Type} (f : Byte → γ) (bs t : List Byte) (h : 1 ≤ bs.length) :
    ((bs ++ t)[0]?.map f) = bs[0]?.map f := by
  cases bs with
  | nil => simp at h
  | cons x bs => rfl

theorem bool : Longer Dec.bool := fixed bool_spec (get0 _)
theorem int8 : Longer Dec.int8 := fixed int8_spec (get0 _)
theorem int16 : Longer Dec.int16 := fixed int16_spec fun bs t h => by rw [beUint16_append bs t h]
theorem int32 : Longer Dec.int32 := fixed int32_spec fun bs t h => by rw [beUint32_append bs t h]
theorem int64 : Longer Dec.int64 := fixed int64_spec fun bs t h => by rw [beUint64_append bs t h]

theorem takeBytes {n : Int} (hn : -(2 ^ 63) ≤ n) : Longer (Dec.takeBytes n) := by
  refine of_out (takeBytes_spec hn) (fun bs => ?_) (fun bs t h => ?_) (fun bs t e k a m h1 h2 => ?_) fun bs e k h => ?_
  · unfold takeOut
    split
    · simp [POut.used]
    · split <;> simp only [POut.used] <;> omega
  · unfold takeOut at h ⊢
    by_cases h0 : n < 0
    · rw [if_pos h0, if_pos h0]
    · rw [if_neg h0] at h ⊢
      by_cases hl : (bs.length : Int) < n
      · rw [if_pos hl] at h; exact absurd rfl (h _ _)
      · rw [if_neg hl, if_neg h0, if_neg (by rw [List.length_append]; omega),
          List.take_append_of_le_length (by omega)]
  · unfold takeOut at h1 h2
    by_cases h0 : n < 0
    · rw [if_pos h0] at h1; cases h1
    · rw [if_neg h0] at h1 h2
      by_cases hl : (bs.length : Int) < n
      · by_cases hl2 : ((bs ++ t).length : Int) < n
        · rw [if_pos hl2] at h2; cases h2
        · rw [if_neg hl2] at h2; cases h2; omega
      · rw [if_neg hl] at h1; cases h1
  · unfold takeOut at h
    by_cases h0 : n < 0
    · rw [if_pos h0] at h; cases h
    · rw [if_neg h0] at h
      by_cases hl : (bs.length : Int) < n
      · rw [if_pos hl] at h; cases h; rfl
      · rw [if_neg hl] at h; cases h

theorem string : Longer Dec.string :=
  int16.bind fun n => ite (pure _) (takeBytes (by have := int16_bounds n; omega))
theorem bytes : Longer Dec.bytes :=
  int32.bind fun n => (takeBytes (by have := int32_bounds n; omega)).bind fun _ => pure _
theorem arrayLength : Longer Dec.arrayLength := int32.bind fun _ => pure _

theorem loop {f : Dec α} (h : Longer f) : ∀ n, Longer (Dec.loop f n)
  | 0 => pure []
  | n + 1 => h.bind fun _ => (loop h n).bind fun _ => pure _

theorem arrayOf {f : Dec α} (h : Longer f) : Longer (Dec.arrayOf f) :=
  arrayLength.bind fun _ => ite (pure _) (ite crash ((loop h _).bind fun _ => pure _))

theorem int32Array : Longer Dec.int32Array := arrayOf int32
theorem int64Array : Longer Dec.int64Array := arrayOf int64
theorem stringArray : Longer Dec.stringArray := arrayOf string
theorem nullableString : Longer Dec.nullableString := string.bind fun _ => pure _

theorem structs {f : Dec α} (h : Longer f) (old : Slice α) : Longer (Dec.structs f old) :=
  arrayLength.bind fun _ => ite ((loop h _).bind fun _ => pure _) (pure _)

end Longer

/-- The same of a statement of `Decode`. -/
def LongerStep {τ : Type} (s : τ → Dec τ) : Prop := ∀ t, Longer (s t)

namespace LongerStep
variable {τ α : Type}
theorem nop : LongerStep (Dec.nop : τ → Dec τ) := fun _ => .pure _
theorem andThen {s s' : τ → Dec τ} (h : LongerStep s) (h' : LongerStep s') : LongerStep (s ;> s') := fun t => (h t).bind h'
theorem field {m : Dec α} {set : τ → α → τ} (h : Longer m) : LongerStep (Dec.field m set) := fun _ => h.bind fun _ => .pure _
theorem structs {f : Dec α} {get : τ → Slice α} {set : τ → Slice α → τ} (h : Longer f) :
    LongerStep (Dec.fieldStructs f get set) := fun _ => (h.structs _).bind fun _ => .pure _
theorem onlyIf {c : Prop} [Decidable c] {s : τ → Dec τ} (h : LongerStep s) : LongerStep (Dec.onlyIf c s) :=
  fun t => .ite (h t) (.pure _)
end LongerStep

end Kafka
