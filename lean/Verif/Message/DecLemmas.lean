import Verif.Message.Decoder
import Verif.Message.Wire
/-!
Reasoning principles for decoder methods.
-/
namespace Kafka

/-- A decoder as the callers set it up: position within the declared length, declared
length within the buffer, buffer addressable. -/
structure Decoder.Valid (d : Decoder) : Prop where
  off_nonneg : 0 ≤ d.offset
  off_le : d.offset ≤ d.length
  len_le : d.length ≤ d.raw.length
  small : d.raw.length < 2 ^ 62

/-- The bytes still available: from the position to the declared length. -/
def Decoder.rest (d : Decoder) : List Byte := (d.raw.take d.length.toNat).drop d.offset.toNat

/-- The decoder `n` bytes further on. -/
def Decoder.skip (d : Decoder) (n : Nat) : Decoder := { d with offset := d.offset + n }

theorem Decoder.rest_length {d : Decoder} (h : d.Valid) :
    (d.rest.length : Int) = d.length - d.offset := by
  have := h.off_nonneg; have := h.off_le; have := h.len_le
  simp only [Decoder.rest, List.length_drop, List.length_take]
  omega

theorem Decoder.skip_valid {d : Decoder} (h : d.Valid) {n : Nat} (hn : n ≤ d.rest.length) :
    (d.skip n).Valid := by
  have := h.off_nonneg; have := h.off_le; have := h.len_le; have := h.small
  have := d.rest_length h
  constructor <;> simp only [Decoder.skip] <;> omega

theorem Decoder.skip_rest {d : Decoder} (h : d.Valid) (n : Nat) :
    (d.skip n).rest = d.rest.drop n := by
  have := h.off_nonneg
  simp only [Decoder.rest, Decoder.skip, List.drop_drop]
  congr 1; omega

@[simp] theorem Decoder.skip_zero (d : Decoder) : d.skip 0 = d := by simp [Decoder.skip]

theorem Decoder.skip_skip (d : Decoder) (a b : Nat) : (d.skip a).skip b = d.skip (a + b) := by
  simp only [Decoder.skip, Decoder.mk.injEq, true_and]; omega

/-- `newDecoder bs bs.length` is a valid decoder looking at `bs`. -/
theorem newDecoder_valid {bs : List Byte} (h : bs.length < 2 ^ 62) :
    (newDecoder bs bs.length).Valid := by
  constructor <;> simp [newDecoder] <;> omega

@[simp] theorem newDecoder_rest (bs : List Byte) : (newDecoder bs bs.length).rest = bs := by
  simp [newDecoder, Decoder.rest]

theorem bind_ok {α β : Type} {m : Dec α} {k : α → Dec β} {d d' : Decoder} {a : α}
    (h : m d = .ok a d') : (m >>= k) d = k a d' := by
  show Dec.bind m k d = _
  unfold Dec.bind; rw [h]

theorem bind_err {α β : Type} {m : Dec α} {k : α → Dec β} {d d' : Decoder} {e : DErr}
    (h : m d = .err e d') : (m >>= k) d = .err e d' := by
  show Dec.bind m k d = _
  unfold Dec.bind; rw [h]

theorem bind_panic {α β : Type} {m : Dec α} {k : α → Dec β} {d : Decoder}
    (h : m d = .panic) : (m >>= k) d = .panic := by
  show Dec.bind m k d = _
  unfold Dec.bind; rw [h]

theorem pure_run {α : Type} (a : α) (d : Decoder) : (Pure.pure a : Dec α) d = .ok a d := rfl

/-! ### Outcomes as functions of the remaining bytes -/

/-- Outcome of parsing a byte list: value or error after consuming `n` bytes, or panic. -/
inductive POut (α : Type) where
  | ok (a : α) (n : Nat)
  | err (e : DErr) (n : Nat)
  | panic

def POut.lift {α : Type} (d : Decoder) : POut α → Res α
  | .ok a n => .ok a (d.skip n)
  | .err e n => .err e (d.skip n)
  | .panic => .panic

def POut.used {α : Type} : POut α → Nat
  | .ok _ n => n
  | .err _ n => n
  | .panic => 0

def POut.shift {α : Type} (k : Nat) : POut α → POut α
  | .ok a n => .ok a (k + n)
  | .err e n => .err e (k + n)
  | .panic => .panic

/-- `m` is determined by the remaining bytes alone, never moves outside them, and reports
no error but insufficient data. -/
def Tame {α : Type} (m : Dec α) : Prop :=
  ∃ f : List Byte → POut α,
    (∀ bs, (f bs).used ≤ bs.length) ∧
    (∀ d, d.Valid → m d = (f d.rest).lift d) ∧
    (∀ bs e n, f bs = .err e n → e = .shortBuffer)

/-- On input in which no byte has its top bit set, `m` does not panic and its results
satisfy `P`. -/
def Calm {α : Type} (m : Dec α) (P : α → Prop) : Prop :=
  ∀ d, d.Valid → (∀ b ∈ d.rest, b.toNat < 0x80) →
    m d ≠ .panic ∧ ∀ a d', m d = .ok a d' → P a

/-- `m` reads exactly the bytes `bs` and returns `a`; given only a strict prefix of `bs`
it reports insufficient data. -/
def Reads {α : Type} (m : Dec α) (bs : List Byte) (a : α) : Prop :=
  (∀ d, d.Valid → ∀ tail, d.rest = bs ++ tail → m d = .ok a (d.skip bs.length)) ∧
  (∀ d, d.Valid → d.rest <+: bs → d.rest ≠ bs → ∃ d', m d = .err .shortBuffer d')

theorem Tame.pure {α : Type} (a : α) : Tame (Pure.pure a : Dec α) :=
  ⟨fun _ => .ok a 0, by simp [POut.used], fun d _ => by simp [POut.lift, Pure.pure, Dec.pure],
    by simp⟩

/-- Sequencing of parsers. -/
def POut.bind {α β : Type} (bs : List Byte) (g : α → List Byte → POut β) : POut α → POut β
  | .ok a n => (g a (bs.drop n)).shift n
  | .err e n => .err e n
  | .panic => .panic

theorem Tame.bind {α β : Type} {m : Dec α} {k : α → Dec β}
    (hm : Tame m) (hk : ∀ a, Tame (k a)) : Tame (m >>= k) := by
  obtain ⟨f, f1, f2, f3⟩ := hm
  obtain ⟨g, hg⟩ := Classical.axiomOfChoice hk
  have g1 := fun a => (hg a).1
  have g2 := fun a => (hg a).2.1
  have g3 := fun a => (hg a).2.2
  refine ⟨fun bs => POut.bind bs g (f bs), ?_, ?_, ?_⟩
  · intro bs
    have h1 := f1 bs
    cases hf : f bs with
    | ok a n =>
      have h2 := g1 a (bs.drop n)
      simp only [hf, POut.used] at h1
      simp only [POut.bind, hf]
      cases hg : g a (bs.drop n) <;> simp_all [POut.shift, POut.used] <;> omega
    | err e n => simpa [hf, POut.bind, POut.used] using h1
    | panic => simp [POut.used, POut.bind, hf]
  · intro d hd
    have h1 := f1 d.rest
    have h2 := f2 d hd
    cases hf : f d.rest with
    | ok a n =>
      rw [hf] at h1 h2
      simp only [POut.used] at h1
      rw [bind_ok h2, g2 a _ (Decoder.skip_valid hd h1), Decoder.skip_rest hd]
      simp only [hf, POut.bind]
      cases g a (d.rest.drop n) <;> simp [POut.lift, POut.shift, Decoder.skip_skip]
    | err e n => rw [hf] at h2; rw [bind_err h2]; simp [hf, POut.bind, POut.lift]
    | panic => rw [hf] at h2; rw [bind_panic h2]; simp [hf, POut.bind, POut.lift]
  · intro bs e n h
    cases hf : f bs with
    | ok a k =>
      simp only [hf, POut.bind] at h
      cases hg : g a (bs.drop k) with
      | ok _ _ => simp [hg, POut.shift] at h
      | err e' n' =>
        have := g3 a _ _ _ hg
        simp [hg, POut.shift] at h
        rw [← h.1, this]
      | panic => simp [hg, POut.shift] at h
    | err e' k =>
      have := f3 _ _ _ hf
      simp [hf, POut.bind] at h
      rw [← h.1, this]
    | panic => simp [hf, POut.bind] at h

theorem Calm.pure {α : Type} {P : α → Prop} {a : α} (h : P a) : Calm (Pure.pure a : Dec α) P := by
  intro d _ _
  refine ⟨by simp [Pure.pure, Dec.pure], fun b d' hb => ?_⟩
  simp [Pure.pure, Dec.pure] at hb
  exact hb.1 ▸ h

theorem Calm.bind {α β : Type} {m : Dec α} {k : α → Dec β} {P : α → Prop} {Q : β → Prop}
    (ht : Tame m) (hm : Calm m P) (hk : ∀ a, P a → Calm (k a) Q) : Calm (m >>= k) Q := by
  intro d hd hc
  obtain ⟨f, f1, f2, f3⟩ := ht
  have h1 := f1 d.rest
  have h2 := f2 d hd
  obtain ⟨hm1, hm2⟩ := hm d hd hc
  cases hf : f d.rest with
  | ok a n =>
    rw [hf] at h1 h2
    simp only [POut.used] at h1
    rw [bind_ok h2]
    refine hk a (hm2 _ _ h2) _ (Decoder.skip_valid hd h1) ?_
    intro b hb
    rw [Decoder.skip_rest hd] at hb
    exact hc b (List.mem_of_mem_drop hb)
  | err e n => rw [hf] at h2; rw [bind_err h2]; simp
  | panic => rw [hf] at h2; exact absurd h2 hm1

theorem Calm.weaken {α : Type} {m : Dec α} {P Q : α → Prop} (h : Calm m P)
    (hpq : ∀ a, P a → Q a) : Calm m Q :=
  fun d hd hc => ⟨(h d hd hc).1, fun a d' ha => hpq a ((h d hd hc).2 a d' ha)⟩

theorem Calm.ite {α : Type} {c : Prop} [Decidable c] {m k : Dec α} {P : α → Prop}
    (hm : c → Calm m P) (hk : ¬c → Calm k P) : Calm (if c then m else k) P := by
  split
  · exact hm ‹_›
  · exact hk ‹_›

theorem Tame.ite {α : Type} {c : Prop} [Decidable c] {m k : Dec α} (hm : Tame m) (hk : Tame k) :
    Tame (if c then m else k) := by split <;> assumption

theorem Reads.pure {α : Type} (a : α) : Reads (Pure.pure a : Dec α) [] a := by
  refine ⟨fun d _ _ _ => by simp [Pure.pure, Dec.pure], fun d _ h1 h2 => ?_⟩
  exact absurd (List.prefix_nil.1 h1) h2

theorem Reads.bind {α β : Type} {m : Dec α} {k : α → Dec β} {as bs : List Byte} {a : α} {b : β}
    (hm : Reads m as a) (hk : Reads (k a) bs b) : Reads (m >>= k) (as ++ bs) b := by
  constructor
  · intro d hd tail ht
    show Dec.bind m k d = _
    have ht' : d.rest = as ++ (bs ++ tail) := by rw [ht, List.append_assoc]
    have hl : as.length ≤ d.rest.length := by rw [ht']; simp
    unfold Dec.bind
    rw [hm.1 d hd _ ht']
    simp only
    rw [hk.1 _ (Decoder.skip_valid hd hl) tail (by rw [Decoder.skip_rest hd, ht']; simp)]
    rw [Decoder.skip_skip, List.length_append]
  · intro d hd hp hne
    show ∃ d', Dec.bind m k d = _
    unfold Dec.bind
    by_cases h : d.rest <+: as ∧ d.rest ≠ as
    · obtain ⟨d', h'⟩ := hm.2 d hd h.1 h.2
      exact ⟨d', by rw [h']⟩
    · have : as <+: d.rest := by
        rcases List.prefix_or_prefix_of_prefix hp (List.prefix_append as bs) with h' | h'
        · have : d.rest = as := by
            apply Classical.byContradiction; intro hc; exact h ⟨h', hc⟩
          rw [this]; exact List.prefix_rfl
        · exact h'
      obtain ⟨t, ht⟩ := this
      have hl : as.length ≤ d.rest.length := by rw [← ht]; simp
      rw [hm.1 d hd t ht.symm]
      simp only
      apply hk.2 _ (Decoder.skip_valid hd hl)
      · rw [Decoder.skip_rest hd, ← ht]
        rw [← ht] at hp
        simpa using hp
      · rw [Decoder.skip_rest hd, ← ht]
        rw [← ht] at hne
        simpa using hne

/-- A field guarded by a version test. -/
theorem Reads.ite {α : Type} {c : Prop} [Decidable c] {m k : Dec α} {as bs : List Byte} {a b : α}
    (hm : c → Reads m as a) (hk : ¬c → Reads k bs b) :
    Reads (if c then m else k) (if c then as else bs) (if c then a else b) := by
  split
  · exact hm ‹_›
  · exact hk ‹_›

theorem Reads.congr {α : Type} {m : Dec α} {as bs : List Byte} {a b : α}
    (h : Reads m as a) (h1 : as = bs) (h2 : a = b) : Reads m bs b := by subst h1 h2; exact h

/-- `x, err := m(); ...; return g(x)` -/
theorem Reads.map {α β : Type} {m : Dec α} {g : α → β} {as : List Byte} {a : α}
    (hm : Reads m as a) : Reads (m >>= fun x => Pure.pure (g x)) as (g a) := by
  have := hm.bind (k := fun x => (Pure.pure (g x) : Dec β)) (Reads.pure (g a))
  simpa using this

/-! ### Fixed-width reads -/

theorem wrap64_id {x : Int} (h1 : -(2 ^ 63) ≤ x) (h2 : x < 2 ^ 63) : wrap64 x = x := by
  unfold wrap64
  rw [Int.bmod_eq_of_le] <;> omega

theorem remains_eq {d : Decoder} (h : d.Valid) (n : Int) :
    Dec.remains n d = if (d.rest.length : Int) < n then .err .shortBuffer d else .ok () d := by
  have := h.off_nonneg; have := h.off_le; have := h.len_le; have := h.small
  unfold Dec.remains
  rw [Decoder.rest_length h, wrap64_id (by omega) (by omega)]

theorem goSliceFrom_eq {d : Decoder} (h : d.Valid) :
    ∃ t, goSliceFrom d.raw d.offset = some (d.rest ++ t) := by
  have := h.off_nonneg; have := h.off_le; have := h.len_le
  refine ⟨d.raw.drop d.length.toNat, ?_⟩
  unfold goSliceFrom
  rw [if_pos (by omega)]
  congr 1
  unfold Decoder.rest
  conv => lhs; rw [← List.take_append_drop d.length.toNat d.raw]
  rw [List.drop_append_of_le_length]
  simp; omega

theorem goIndex_eq {d : Decoder} (h : d.Valid) (hl : 0 < d.rest.length) :
    goIndex d.raw d.offset = d.rest[0]? := by
  have := h.off_nonneg; have := h.off_le; have := h.len_le
  have h3 := Decoder.rest_length h
  unfold goIndex
  rw [if_pos (by omega)]
  unfold Decoder.rest
  rw [List.getElem?_drop, List.getElem?_take_of_lt (by omega)]
  simp

/-- A read of a fixed number `w` of bytes, decoded by `g`. -/
def fixedOut {α : Type} (w : Nat) (g : List Byte → Option α) (bs : List Byte) : POut α :=
  if bs.length < w then .err .shortBuffer 0
  else match g bs with
    | some a => .ok a w
    | none => .panic

theorem fixed_tame {α : Type} {m : Dec α} {w : Nat} {g : List Byte → Option α}
    (hm : ∀ d, d.Valid → m d = (fixedOut w g d.rest).lift d) : Tame m := by
  refine ⟨fixedOut w g, ?_, hm, ?_⟩
  · intro bs; unfold fixedOut
    split
    · simp [POut.used]
    · split <;> simp [POut.used]; omega
  · intro bs e n h; unfold fixedOut at h
    split at h
    · simp_all
    · split at h <;> simp_all

theorem fixed_calm {α : Type} {m : Dec α} {w : Nat} {g : List Byte → Option α} {P : α → Prop}
    (hm : ∀ d, d.Valid → m d = (fixedOut w g d.rest).lift d)
    (hg : ∀ bs, w ≤ bs.length → g bs ≠ none)
    (hp : ∀ bs a, (∀ b ∈ bs, b.toNat < 0x80) → g bs = some a → P a) : Calm m P := by
  intro d hd hc
  rw [hm d hd]
  unfold fixedOut
  split
  · simp [POut.lift]
  · have := hg d.rest (by omega)
    cases hgd : g d.rest with
    | none => exact absurd hgd this
    | some a =>
      refine ⟨by simp [POut.lift], fun b d' hb => ?_⟩
      simp [POut.lift] at hb
      exact hb.1 ▸ hp d.rest a hc hgd

theorem fixed_reads {α : Type} {m : Dec α} {w : Nat} {g : List Byte → Option α}
    (hm : ∀ d, d.Valid → m d = (fixedOut w g d.rest).lift d)
    {bs : List Byte} {a : α} (hw : bs.length = w) (hg : ∀ t, g (bs ++ t) = some a) :
    Reads m bs a := by
  constructor
  · intro d hd tail ht
    rw [hm d hd, ht]
    unfold fixedOut
    rw [if_neg (by simp; omega), hg]
    simp [POut.lift, hw]
  · intro d hd hp hne
    rw [hm d hd]
    have : d.rest.length < w := by
      have h1 := hp.length_le
      rcases Nat.lt_or_ge d.rest.length w with h | h
      · exact h
      · exact absurd (hp.eq_of_length (by omega)) hne
    unfold fixedOut
    rw [if_pos this]
    exact ⟨_, rfl⟩

theorem advance_eq {d : Decoder} (h : d.Valid) {i : Int} (n : Nat) (hn : n ≤ d.rest.length)
    (hi : i = n) : Dec.advance i d = .ok () (d.skip n) := by
  subst hi
  have := h.off_nonneg; have := h.off_le; have := h.len_le; have := h.small
  have h3 := Decoder.rest_length h
  unfold Dec.advance Decoder.skip
  rw [wrap64_id (by omega) (by omega)]

theorem remains_ok {d : Decoder} (h : d.Valid) {n : Int} (hn : n ≤ d.rest.length) :
    Dec.remains n d = .ok () d := by
  rw [remains_eq h, if_neg (by omega)]

theorem remains_err {d : Decoder} (h : d.Valid) {n : Int} (hn : (d.rest.length : Int) < n) :
    Dec.remains n d = .err .shortBuffer d := by
  rw [remains_eq h, if_pos hn]

theorem expr_some {α : Type} {f : Decoder → Option α} {d : Decoder} {a : α} (h : f d = some a) :
    Dec.expr f d = .ok a d := by unfold Dec.expr; rw [h]

theorem expr_none {α : Type} {f : Decoder → Option α} {d : Decoder} (h : f d = none) :
    Dec.expr f d = .panic := by unfold Dec.expr; rw [h]

theorem index_spec {α : Type} (f : Byte → α) (d : Decoder) (h : d.Valid) :
    (do Dec.remains 1
        let b ← Dec.expr fun d => goIndex d.raw d.offset
        Dec.advance 1
        Pure.pure (f b) : Dec α) d = (fixedOut 1 (fun bs => bs[0]?.map f) d.rest).lift d := by
  unfold fixedOut
  by_cases hl : d.rest.length < 1
  · rw [bind_err (remains_err h (by omega)), if_pos hl]; simp [POut.lift]
  · rw [bind_ok (remains_ok h (by omega)), if_neg hl]
    obtain ⟨x, t, hx⟩ : ∃ x t, d.rest = x :: t := by
      cases hr : d.rest with
      | nil => simp [hr] at hl
      | cons x t => exact ⟨x, t, rfl⟩
    have hi : goIndex d.raw d.offset = some x := by rw [goIndex_eq h (by omega), hx]; rfl
    rw [bind_ok (expr_some hi), bind_ok (advance_eq (i := 1) h 1 (by omega) rfl), pure_run, hx]
    rfl

theorem sliced_spec {α β : Type} (w : Nat) (g : List Byte → Option β) (f : β → α)
    (hw : ∀ bs t : List Byte, w ≤ bs.length → g (bs ++ t) = g bs) (d : Decoder) (h : d.Valid) :
    (do Dec.remains w
        let b ← Dec.expr fun d => (goSliceFrom d.raw d.offset).bind g
        Dec.advance w
        Pure.pure (f b) : Dec α) d = (fixedOut w (fun bs => (g bs).map f) d.rest).lift d := by
  unfold fixedOut
  by_cases hl : d.rest.length < w
  · rw [bind_err (remains_err h (by omega)), if_pos hl]; simp [POut.lift]
  · rw [bind_ok (remains_ok h (by omega)), if_neg hl]
    obtain ⟨t, ht⟩ := goSliceFrom_eq h
    have hi : (goSliceFrom d.raw d.offset).bind g = g d.rest := by
      rw [ht, Option.bind_some, hw _ _ (by omega)]
    cases hg : g d.rest with
    | none => rw [bind_panic (expr_none (hi.trans hg))]; simp [POut.lift, hg]
    | some b =>
      rw [bind_ok (expr_some (hi.trans hg)), bind_ok (advance_eq h w (by omega) rfl), pure_run]
      simp [POut.lift, hg]

theorem beUint16_append (bs t : List Byte) (h : 2 ≤ bs.length) : beUint16 (bs ++ t) = beUint16 bs := by
  match bs, h with
  | _ :: _ :: _, _ => rfl
theorem beUint32_append (bs t : List Byte) (h : 4 ≤ bs.length) : beUint32 (bs ++ t) = beUint32 bs := by
  match bs, h with
  | _ :: _ :: _ :: _ :: _, _ => rfl
theorem beUint64_append (bs t : List Byte) (h : 8 ≤ bs.length) : beUint64 (bs ++ t) = beUint64 bs := by
  match bs, h with
  | _ :: _ :: _ :: _ :: _ :: _ :: _ :: _ :: _, _ => rfl
theorem beUint16_ne_none (bs : List Byte) (h : 2 ≤ bs.length) : beUint16 bs ≠ none := by
  match bs, h with
  | _ :: _ :: _, _ => simp [beUint16]
theorem beUint32_ne_none (bs : List Byte) (h : 4 ≤ bs.length) : beUint32 bs ≠ none := by
  match bs, h with
  | _ :: _ :: _ :: _ :: _, _ => simp [beUint32]
theorem beUint64_ne_none (bs : List Byte) (h : 8 ≤ bs.length) : beUint64 bs ≠ none := by
  match bs, h with
  | _ :: _ :: _ :: _ :: _ :: _ :: _ :: _ :: _, _ => simp [beUint64]

theorem wire_int8 (i : Int8) : Wire.int8 i = [i.toBitVec] := by
  simp [Wire.int8, Wire.bigEndian, ← Int8.toInt_toBitVec]

theorem bigEndian_byte {w : Nat} (v : BitVec w) (k : Nat) (h : 8 * k + 8 ≤ w) :
    BitVec.ofInt 8 (v.toInt / 256 ^ k) = v.extractLsb' (8 * k) 8 := by
  have e : (256 : Int) ^ k = 2 ^ (8 * k) := by rw [Int.pow_mul]; rfl
  have : v.toInt / 256 ^ k = (v.sshiftRight (8 * k)).toInt := by
    rw [BitVec.toInt_sshiftRight, Int.shiftRight_eq_div_pow, e]; norm_cast
  rw [this]
  have h2 : BitVec.ofInt 8 (v.sshiftRight (8 * k)).toInt = (v.sshiftRight (8 * k)).setWidth 8 := by
    rw [← BitVec.signExtend_eq_setWidth_of_le _ (by omega)]; rfl
  rw [h2]
  ext i hi
  simp [BitVec.getLsbD_sshiftRight]
  have : 8 * k + i < w := by omega
  have h3 : ¬ w ≤ i := by omega
  simp [this, h3]

theorem wire_int16 (i : Int16) : Wire.int16 i = be16 i.toBitVec := by
  have b := fun k h => bigEndian_byte i.toBitVec k h
  simp only [Int16.toInt_toBitVec] at b
  show [BitVec.ofInt 8 (i.toInt / 256 ^ 1), BitVec.ofInt 8 (i.toInt / 256 ^ 0)] = _
  rw [b 1 (by omega), b 0 (by omega)]; rfl

theorem wire_int32 (i : Int32) : Wire.int32 i = be32 i.toBitVec := by
  have b := fun k h => bigEndian_byte i.toBitVec k h
  simp only [Int32.toInt_toBitVec] at b
  show [BitVec.ofInt 8 (i.toInt / 256 ^ 3), BitVec.ofInt 8 (i.toInt / 256 ^ 2),
    BitVec.ofInt 8 (i.toInt / 256 ^ 1), BitVec.ofInt 8 (i.toInt / 256 ^ 0)] = _
  rw [b 3 (by omega), b 2 (by omega), b 1 (by omega), b 0 (by omega)]; rfl

theorem wire_int64 (i : Int64) : Wire.int64 i = be64 i.toBitVec := by
  have b := fun k h => bigEndian_byte i.toBitVec k h
  simp only [Int64.toInt_toBitVec] at b
  show [BitVec.ofInt 8 (i.toInt / 256 ^ 7), BitVec.ofInt 8 (i.toInt / 256 ^ 6),
    BitVec.ofInt 8 (i.toInt / 256 ^ 5), BitVec.ofInt 8 (i.toInt / 256 ^ 4),
    BitVec.ofInt 8 (i.toInt / 256 ^ 3), BitVec.ofInt 8 (i.toInt / 256 ^ 2),
    BitVec.ofInt 8 (i.toInt / 256 ^ 1), BitVec.ofInt 8 (i.toInt / 256 ^ 0)] = _
  rw [b 7 (by omega), b 6 (by omega), b 5 (by omega), b 4 (by omega), b 3 (by omega),
    b 2 (by omega), b 1 (by omega), b 0 (by omega)]; rfl

theorem beUint16_be16 (v : BitVec 16) (t : List Byte) : beUint16 (be16 v ++ t) = some v := by
  simp only [be16, List.cons_append, beUint16, Option.some.injEq]
  ext i hi; simp; grind
theorem beUint32_be32 (v : BitVec 32) (t : List Byte) : beUint32 (be32 v ++ t) = some v := by
  simp only [be32, List.cons_append, beUint32, Option.some.injEq]
  ext i hi; simp; grind
theorem beUint64_be64 (v : BitVec 64) (t : List Byte) : beUint64 (be64 v ++ t) = some v := by
  simp only [be64, List.cons_append, beUint64, Option.some.injEq]
  ext i hi; simp; grind

theorem bool_spec (d : Decoder) (h : d.Valid) :
    Dec.bool d = (fixedOut 1 (fun bs => bs[0]?.map (· == 1)) d.rest).lift d := index_spec _ d h
theorem int8_spec (d : Decoder) (h : d.Valid) :
    Dec.int8 d = (fixedOut 1 (fun bs => bs[0]?.map Int8.ofBitVec) d.rest).lift d := index_spec _ d h
theorem int16_spec (d : Decoder) (h : d.Valid) :
    Dec.int16 d = (fixedOut 2 (fun bs => (beUint16 bs).map Int16.ofBitVec) d.rest).lift d :=
  sliced_spec 2 _ _ beUint16_append d h
theorem int32_spec (d : Decoder) (h : d.Valid) :
    Dec.int32 d = (fixedOut 4 (fun bs => (beUint32 bs).map Int32.ofBitVec) d.rest).lift d :=
  sliced_spec 4 _ _ beUint32_append d h
theorem int64_spec (d : Decoder) (h : d.Valid) :
    Dec.int64 d = (fixedOut 8 (fun bs => (beUint64 bs).map Int64.ofBitVec) d.rest).lift d :=
  sliced_spec 8 _ _ beUint64_append d h

theorem reads_bool (b : Bool) : Reads Dec.bool (Wire.bool b) b :=
  fixed_reads bool_spec rfl (by intro t; cases b <;> rfl)
theorem reads_int8 (i : Int8) : Reads Dec.int8 (Wire.int8 i) i :=
  fixed_reads int8_spec rfl (by intro t; simp [wire_int8])
theorem reads_int16 (i : Int16) : Reads Dec.int16 (Wire.int16 i) i :=
  fixed_reads int16_spec rfl (by intro t; rw [wire_int16, beUint16_be16]; simp)
theorem reads_int32 (i : Int32) : Reads Dec.int32 (Wire.int32 i) i :=
  fixed_reads int32_spec rfl (by intro t; rw [wire_int32, beUint32_be32]; simp)
theorem reads_int64 (i : Int64) : Reads Dec.int64 (Wire.int64 i) i :=
  fixed_reads int64_spec rfl (by intro t; rw [wire_int64, beUint64_be64]; simp)

theorem tame_bool : Tame Dec.bool := fixed_tame bool_spec
theorem tame_int8 : Tame Dec.int8 := fixed_tame int8_spec
theorem tame_int16 : Tame Dec.int16 := fixed_tame int16_spec
theorem tame_int32 : Tame Dec.int32 := fixed_tame int32_spec
theorem tame_int64 : Tame Dec.int64 := fixed_tame int64_spec

theorem calm_bool : Calm Dec.bool (fun _ => True) :=
  fixed_calm bool_spec (by intro bs h; simp; intro h0; simp [h0] at h) (by simp)
theorem calm_int8 : Calm Dec.int8 (fun _ => True) :=
  fixed_calm int8_spec (by intro bs h; simp; intro h0; simp [h0] at h) (by simp)
theorem calm_int64 : Calm Dec.int64 (fun _ => True) :=
  fixed_calm int64_spec (by intro bs h; simpa using beUint64_ne_none bs h) (by simp)

theorem beUint16_calm {bs : List Byte} {v : BitVec 16} (hb : ∀ b ∈ bs, b.toNat < 0x80)
    (h : beUint16 bs = some v) : v.toNat < 2 ^ 15 := by
  match bs, h with
  | b0 :: b1 :: _, h =>
    simp only [beUint16, Option.some.injEq] at h
    have h0 := hb b0 (by simp)
    subst h
    have h1 := b1.isLt
    simp only [BitVec.toNat_append]
    rw [← Nat.shiftLeft_add_eq_or_of_lt h1, Nat.shiftLeft_eq]
    omega

theorem beUint32_calm {bs : List Byte} {v : BitVec 32} (hb : ∀ b ∈ bs, b.toNat < 0x80)
    (h : beUint32 bs = some v) : v.toNat < 2 ^ 31 := by
  match bs, h with
  | b0 :: b1 :: b2 :: b3 :: _, h =>
    simp only [beUint32, Option.some.injEq] at h
    have h0 := hb b0 (by simp)
    subst h
    have h1 := b1.isLt
    have h2 := b2.isLt
    have h3 := b3.isLt
    simp only [BitVec.toNat_append]
    rw [← Nat.shiftLeft_add_eq_or_of_lt h1, ← Nat.shiftLeft_add_eq_or_of_lt h2,
      ← Nat.shiftLeft_add_eq_or_of_lt h3]
    simp only [Nat.shiftLeft_eq]
    omega

theorem calm_int16 : Calm Dec.int16 (fun n => 0 ≤ n.toInt) :=
  fixed_calm int16_spec (by intro bs h; simpa using beUint16_ne_none bs h) (by
    intro bs a hb h
    simp only [Option.map_eq_some_iff] at h
    obtain ⟨v, hv, rfl⟩ := h
    have := beUint16_calm hb hv
    rw [Int16.toInt_ofBitVec, BitVec.toInt_eq_toNat_of_lt (by omega)]
    omega)
theorem calm_int32 : Calm Dec.int32 (fun n => 0 ≤ n.toInt) :=
  fixed_calm int32_spec (by intro bs h; simpa using beUint32_ne_none bs h) (by
    intro bs a hb h
    simp only [Option.map_eq_some_iff] at h
    obtain ⟨v, hv, rfl⟩ := h
    have := beUint32_calm hb hv
    rw [Int32.toInt_ofBitVec, BitVec.toInt_eq_toNat_of_lt (by omega)]
    omega)

end Kafka
