import Verif.Message.Kept
import Verif.Message.Reuse
import Verif.Message.Filled
/-!
Lemmas on `Decode` with its receiver kept.
-/
namespace Kafka

/-! ### It is the same `Decode` -/

/-- The same statement, with and without what is kept. -/
def KStep {τ : Type} (k : KDec τ) (f : τ → Dec τ) : Prop := ∀ t d, (k t d).forget = f t d

namespace KStep
variable {τ α : Type}

theorem nop : KStep (KDec.nop : KDec τ) Dec.nop := fun _ _ => rfl

theorem field {m : Dec α} {z : α} {set : τ → α → τ} : KStep (KDec.field m z set) (Dec.field m set) := by
  intro t d
  show _ = Dec.bind m (fun x => Dec.pure (set t x)) d
  unfold KDec.field Dec.bind
  cases m d <;> rfl

theorem items {dec : Decoder → Kept α} {f : Dec α} (z : α) (h : ∀ d, (dec d).forget = f d) :
    ∀ n d, (KDec.items dec z n d).forget = Dec.loop f n d
  | 0, d => rfl
  | n + 1, d => by
    show _ = Dec.bind f (fun x => Dec.bind (Dec.loop f n) fun xs => Dec.pure (x :: xs)) d
    unfold KDec.items Dec.bind
    rw [← h d]
    cases dec d with
    | panic => rfl
    | err e t d' => rfl
    | ok x d' =>
      simp only [Kept.forget]
      rw [← items z h n d']
      cases KDec.items dec z n d' <;> rfl

theorem structs {dec : Decoder → Kept α} {f : Dec α} {z : α} {get : τ → Slice α} {set : τ → Slice α → τ}
    (hget : ∀ t, set t (get t) = t) (h : ∀ d, (dec d).forget = f d) :
    KStep (KDec.fieldStructs dec z set) (Dec.fieldStructs f get set) := by
  intro t d
  show _ = Dec.bind (Dec.bind Dec.arrayLength fun n => if n ≥ 0 then Dec.bind (Dec.loop f n.toNat) fun l => Dec.pure (some l)
    else Dec.pure (get t)) (fun x => Dec.pure (set t x)) d
  unfold KDec.fieldStructs Dec.bind
  cases Dec.arrayLength d with
  | panic => rfl
  | err e d' => rfl
  | ok n d' =>
    simp only
    by_cases hn : n ≥ 0
    · simp only [if_pos hn]
      rw [← items z h n.toNat d']
      cases KDec.items dec z n.toNat d' <;> rfl
    · simp only [if_neg hn, Dec.pure, hget]
      rfl

theorem andThen {k l : KDec τ} {f g : τ → Dec τ} (h : KStep k f) (h' : KStep l g) : KStep (k ;|> l) (f ;> g) := by
  intro t d
  show _ = Dec.bind (f t) g d
  unfold KDec.andThen Dec.bind
  rw [← h t d]
  cases k t d with
  | panic => rfl
  | err e t' d' => rfl
  | ok t' d' => exact h' t' d'

theorem onlyIf {c : Prop} [Decidable c] {k : KDec τ} {f : τ → Dec τ} (h : KStep k f) :
    KStep (KDec.onlyIf c k) (Dec.onlyIf c f) := by
  intro t d
  unfold KDec.onlyIf Dec.onlyIf
  split
  · exact h t d
  · rfl

end KStep

/-! ### Messages of which only a part is there -/

/-- The statement reads the bytes `b` of the message, from `start` to `stop`; where only `n` bytes of the message are there, it
goes on from `c n` to `c' n`. -/
structure Cuts {τ : Type} (f : KDec τ) (start : Nat) (b : List Byte) (stop : Nat) (c c' : Nat → τ) : Prop where
  stop_eq : stop = start + b.length
  ok : ∀ n, stop ≤ n → ∀ d : Decoder, d.Valid → ∀ tail, d.rest = b ++ tail → f (c n) d = .ok (c' n) (d.skip b.length)
  err : ∀ n, start ≤ n → n < stop → ∀ d : Decoder, d.Valid → d.rest = b.take (n - start) →
    ∃ d', f (c n) d = .err .shortBuffer (c' n) d'
  stay : ∀ n, n < start → c n = c' n

theorem take_strict {b : List Byte} {k : Nat} (h : k < b.length) : b.take k <+: b ∧ b.take k ≠ b :=
  ⟨List.take_prefix _ _, fun he => by have := congrArg List.length he; simp at this; omega⟩

namespace Cuts
variable {τ α : Type}

theorem nop {c : Nat → τ} {start : Nat} : Cuts KDec.nop start [] start c c where
  stop_eq := rfl
  ok n _ d _ tail _ := by simp [KDec.nop]
  err n h1 h2 := absurd h1 (by omega)
  stay _ _ := rfl

theorem andThen {f g : KDec τ} {o o1 o2 : Nat} {b b' : List Byte} {c c1 c2 : Nat → τ} (h : Cuts f o b o1 c c1)
    (h' : Cuts g o1 b' o2 c1 c2) : Cuts (f ;|> g) o (b ++ b') o2 c c2 where
  stop_eq := by rw [h'.stop_eq, h.stop_eq, List.length_append]; omega
  ok n hn d hd tail ht := by
    have e1 := h.stop_eq
    have e2 := h'.stop_eq
    rw [List.append_assoc] at ht
    have hl : b.length ≤ d.rest.length := by rw [ht]; simp
    unfold KDec.andThen
    rw [h.ok n (by omega) d hd _ ht]
    simp only
    rw [h'.ok n hn _ (Decoder.skip_valid hd hl) tail (by rw [Decoder.skip_rest hd, ht]; simp), Decoder.skip_skip,
      List.length_append]
  err n h1 h2 d hd ht := by
    have e1 := h.stop_eq
    have e2 := h'.stop_eq
    unfold KDec.andThen
    by_cases hn : n < o1
    · rw [List.take_append_of_le_length (by omega)] at ht
      obtain ⟨d', e⟩ := h.err n h1 hn d hd ht
      exact ⟨d', by rw [e, h'.stay n hn]⟩
    · have ht' : d.rest = b ++ b'.take (n - o1) := by
        rw [ht, List.take_append, List.take_of_length_le (by omega)]
        congr 2
        omega
      have hl : b.length ≤ d.rest.length := by rw [ht']; simp
      obtain ⟨d', e⟩ := h'.err n (by omega) h2 (d.skip b.length) (Decoder.skip_valid hd hl)
        (by rw [Decoder.skip_rest hd, ht']; simp)
      exact ⟨d', by rw [h.ok n (by omega) d hd _ ht']; exact e⟩
  stay n hn := by
    have e1 := h.stop_eq
    exact (h.stay n hn).trans (h'.stay n (by omega))

theorem field {m : Dec α} {z x : α} {set : τ → α → τ} {o : Nat} {b : List Byte} {c c' : Nat → τ} (h : Reads m b x)
    (hs : ∀ n, set (c n) (Cut.field n (o + b.length) x z) = c' n) (hz : ∀ n, set (c n) z = c n) :
    Cuts (KDec.field m z set) o b (o + b.length) c c' where
  stop_eq := rfl
  ok n hn d hd tail ht := by
    unfold KDec.field
    rw [h.1 d hd tail ht, ← hs n, Cut.field, if_pos hn]
  err n h1 h2 d hd ht := by
    have hp := take_strict (b := b) (k := n - o) (by omega)
    rw [← ht] at hp
    obtain ⟨d', e⟩ := h.2 d hd hp.1 hp.2
    exact ⟨d', by unfold KDec.field; rw [e, ← hs n, Cut.field, if_neg (by omega)]⟩
  stay n hn := by rw [← hs n, Cut.field, if_neg (by omega), hz]

theorem onlyIf {p : Prop} [Decidable p] {f : KDec τ} {o : Nat} {b : List Byte} {c c' : Nat → τ}
    (h : p → Cuts f o b (o + b.length) c c') (h' : ¬p → ∀ n, c n = c' n) :
    Cuts (KDec.onlyIf p f) o (Wire.when p b) (o + (Wire.when p b).length) c c' := by
  by_cases hp : p
  · have e : Wire.when p b = b := if_pos hp
    have e' : KDec.onlyIf p f = f := by funext t d; exact if_pos hp
    rw [e, e']; exact h hp
  · have e : Wire.when p b = [] := if_neg hp
    have e' : KDec.onlyIf p f = KDec.nop := by funext t d; exact if_neg hp
    have ec : c = c' := funext (h' hp)
    rw [e, e', ec]; exact nop

theorem optField {p : Prop} [Decidable p] {m : Dec α} {z x : α} {set : τ → α → τ} {o : Nat} {b : List Byte}
    {c c' : Nat → τ} (h : p → Reads m b x)
    (hs : ∀ n, set (c n) (Cut.gate p (Cut.field n (o + (Wire.when p b).length) x z) z) = c' n) (hz : ∀ n, set (c n) z = c n) :
    Cuts (KDec.onlyIf p (KDec.field m z set)) o (Wire.when p b) (o + (Wire.when p b).length) c c' := by
  refine onlyIf (fun hp => field (h hp) (fun n => ?_) hz) fun hp n => ?_
  · rw [← hs n, Cut.gate, if_pos hp, Wire.when, if_pos hp]
  · rw [← hs n, Cut.gate, if_neg hp, hz]

/-- The loop over the items of an array. -/
theorem items {dec : Decoder → Kept α} {f : Dec α} {w : α → List Byte} {g : α → α} (z : α)
    (hk : ∀ d, (dec d).forget = f d) : ∀ (l : List α), (∀ x ∈ l, Reads f (w x) (g x)) → ∀ n (d : Decoder), d.Valid →
      (∀ tail, d.rest = l.flatMap w ++ tail → (l.flatMap w).length ≤ n →
        KDec.items dec z l.length d = .ok (Cut.items w g z n l) (d.skip (l.flatMap w).length)) ∧
      (d.rest = (l.flatMap w).take n → n < (l.flatMap w).length →
        ∃ d', KDec.items dec z l.length d = .err .shortBuffer (Cut.items w g z n l) d')
  | [], _, n, d, _ => by
    refine ⟨fun _ _ _ => ?_, fun _ h => by simp at h⟩
    simp [KDec.items, Cut.items]
  | x :: l, hr, n, d, hd => by
    have hx := hr x List.mem_cons_self
    constructor
    · intro tail ht hn
      rw [List.flatMap_cons, List.append_assoc] at ht
      rw [List.flatMap_cons, List.length_append] at hn
      have hl : (w x).length ≤ d.rest.length := by rw [ht]; simp
      have h1 := hk d
      rw [hx.1 d hd _ ht] at h1
      have h2 : dec d = .ok (g x) (d.skip (w x).length) := by
        revert h1
        cases dec d <;> simp [Kept.forget]
      have h3 := (items z hk l (fun y hy => hr y (List.mem_cons_of_mem _ hy)) (n - (w x).length) (d.skip (w x).length)
        (Decoder.skip_valid hd hl)).1 tail (by rw [Decoder.skip_rest hd, ht]; simp) (by omega)
      show KDec.items dec z (l.length + 1) d = _
      unfold KDec.items Cut.items
      rw [h2]
      simp only
      rw [h3, if_pos (by omega)]
      simp only
      rw [Decoder.skip_skip, List.flatMap_cons, List.length_append]
    · intro ht hn
      rw [List.flatMap_cons] at ht
      rw [List.flatMap_cons, List.length_append] at hn
      show ∃ d', KDec.items dec z (l.length + 1) d = _
      unfold KDec.items Cut.items
      by_cases hw : (w x).length ≤ n
      · rw [List.take_append, List.take_of_length_le hw] at ht
        have hl : (w x).length ≤ d.rest.length := by rw [ht]; simp
        have h1 := hk d
        rw [hx.1 d hd _ ht] at h1
        have h2 : dec d = .ok (g x) (d.skip (w x).length) := by
          revert h1
          cases dec d <;> simp [Kept.forget]
        obtain ⟨d', h3⟩ := (items z hk l (fun y hy => hr y (List.mem_cons_of_mem _ hy)) (n - (w x).length)
          (d.skip (w x).length) (Decoder.skip_valid hd hl)).2 (by rw [Decoder.skip_rest hd, ht]; simp) (by omega)
        refine ⟨d', ?_⟩
        rw [h2]
        simp only
        rw [h3, if_pos hw]
      · rw [List.take_append_of_le_length (by omega)] at ht
        have hp := take_strict (b := w x) (k := n) (by omega)
        rw [← ht] at hp
        obtain ⟨d', e⟩ := hx.2 d hd hp.1 hp.2
        have h1 := hk d
        rw [e] at h1
        have h2 : ∃ t, dec d = .err .shortBuffer t d' := by
          revert h1
          cases dec d <;> simp [Kept.forget]
        obtain ⟨t, h2⟩ := h2
        refine ⟨d', ?_⟩
        rw [h2, if_neg hw]
        simp [List.map_const']

theorem structs {dec : Decoder → Kept α} {f : Dec α} {w : α → List Byte} {g : α → α} {z : α} {p : α → Prop} {s : Slice α}
    {set : τ → Slice α → τ} {o : Nat} {c c' : Nat → τ} (hk : ∀ d, (dec d).forget = f d)
    (hr : ∀ x, p x → Reads f (w x) (g x)) (hf : FitsAll p s)
    (hs : ∀ n, set (c n) (Cut.array n o w g z s) = c' n) (hz : ∀ n, set (c n) none = c n) :
    Cuts (KDec.fieldStructs dec z set) o (Wire.array w s) (o + (Wire.array w s).length) c c' := by
  have h4 : ∀ i, (Wire.int32 i).length = 4 := fun i => by simp [Wire.int32, Wire.bigEndian]
  have hal := reads_arrayLength hf.1
  have hlen : (Wire.array w s).length = 4 + (s.elems.flatMap w).length := by rw [Wire.array, List.length_append, h4]
  have hi := items z hk s.elems (fun x hx => hr x (hf.2 x hx))
  refine ⟨rfl, fun n hn d hd tail ht => ?_, fun n h1 h2 d hd ht => ?_, fun n hn => ?_⟩
  · rw [Wire.array, List.append_assoc] at ht
    have hl : 4 ≤ d.rest.length := by rw [ht]; simp [h4]
    have h1 := (hi (n - o - 4) (d.skip 4) (Decoder.skip_valid hd hl)).1 tail
      (by rw [Decoder.skip_rest hd, ht]; simp [h4]) (by omega)
    unfold KDec.fieldStructs
    rw [hal.1 d hd _ ht, h4]
    simp only
    rw [if_pos (by omega)]
    have hsl : ((s.len : Int)).toNat = s.elems.length := by simp [Slice.len]
    rw [hsl, h1]
    simp only
    rw [← hs n, Cut.array, if_pos (by omega), Decoder.skip_skip, hlen]
  · rw [Wire.array, List.take_append, h4] at ht
    unfold KDec.fieldStructs
    by_cases hn : o + 4 ≤ n
    · rw [List.take_of_length_le (by rw [h4]; omega)] at ht
      have hl : 4 ≤ d.rest.length := by rw [ht]; simp [h4]
      obtain ⟨d', h3⟩ := (hi (n - o - 4) (d.skip 4) (Decoder.skip_valid hd hl)).2
        (by rw [Decoder.skip_rest hd, ht]; simp [h4]) (by omega)
      refine ⟨d', ?_⟩
      rw [hal.1 d hd _ ht, h4]
      simp only
      rw [if_pos (by omega)]
      have hsl : ((s.len : Int)).toNat = s.elems.length := by simp [Slice.len]
      rw [hsl, h3]
      simp only
      rw [← hs n, Cut.array, if_pos (by omega)]
    · have e0 : n - o - 4 = 0 := by omega
      rw [e0, List.take_zero, List.append_nil] at ht
      have hp := take_strict (b := Wire.int32 (Int32.ofNat s.len)) (k := n - o) (by rw [h4]; omega)
      rw [← ht] at hp
      obtain ⟨d', e⟩ := hal.2 d hd hp.1 hp.2
      refine ⟨d', ?_⟩
      rw [e]
      simp only
      rw [← hs n, Cut.array, if_neg (by omega), hz]
  · rw [← hs n, Cut.array, if_neg (by omega), hz]

theorem optStructs {q : Prop} [Decidable q] {dec : Decoder → Kept α} {f : Dec α} {w : α → List Byte} {g : α → α} {z : α}
    {p : α → Prop} {s : Slice α} {set : τ → Slice α → τ} {o : Nat} {c c' : Nat → τ} (hk : ∀ d, (dec d).forget = f d)
    (hr : ∀ x, p x → Reads f (w x) (g x)) (hf : q → FitsAll p s)
    (hs : ∀ n, set (c n) (Cut.gate q (Cut.array n o w g z s) none) = c' n) (hz : ∀ n, set (c n) none = c n) :
    Cuts (KDec.onlyIf q (KDec.fieldStructs dec z set)) o (Wire.when q (Wire.array w s))
      (o + (Wire.when q (Wire.array w s)).length) c c' := by
  refine onlyIf (fun hp => structs hk hr (hf hp) (fun n => ?_) hz) fun hp n => ?_
  · rw [← hs n, Cut.gate, if_pos hp]
  · rw [← hs n, Cut.gate, if_neg hp, hz]

end Cuts

/-! ### Any bytes -/

/-- The statement takes what is before it (`c`) to what is up to its end (`c'`); where it fails, what it leaves is to what it
makes of more bytes as `E` says. -/
structure Parts {τ : Type} (f : KDec τ) (c c' : τ → τ) (E : τ → τ → Prop) : Prop where
  trunc : ∀ y, c (c' y) = c y
  near : ∀ r y, E r (c' y) ↔ E r y
  longer : ∀ t, Longer (fun d => (f t d).forget)
  ok : ∀ t d t' d', c t = t → f t d = .ok t' d' → c t' = t ∧ c' t' = t'
  err : ∀ t (d d2 : Decoder) tail e r d' t' d2', c t = t → d.Valid → d2.Valid → d2.rest = d.rest ++ tail →
    f t d = .err e r d' → f t d2 = .ok t' d2' → E r t'

theorem forget_ok {τ : Type} {k : Kept τ} {t : τ} {d : Decoder} (h : k.forget = .ok t d) : k = .ok t d := by
  cases k <;> simp_all [Kept.forget]

namespace Parts
variable {τ α : Type}

theorem nop {c : τ → τ} (hc : ∀ y, c (c y) = c y) : Parts KDec.nop c c (fun _ _ => False) where
  trunc := hc
  near _ _ := Iff.rfl
  longer t := .pure t
  ok t d t' d' h e := by cases e; exact ⟨h, h⟩
  err t d d2 tail e r d' t' d2' _ _ _ _ h := by cases h

theorem andThen {f g : KDec τ} {c c1 c2 : τ → τ} {E E' : τ → τ → Prop} (h : Parts f c c1 E) (h' : Parts g c1 c2 E') :
    Parts (f ;|> g) c c2 (fun r y => E r y ∨ E' r y) where
  trunc y := by rw [← h.trunc (c2 y), h'.trunc, h.trunc]
  near r y := by
    rw [h'.near r y, ← h.near r (c2 y), h'.trunc, h.near]
  longer t := by
    have e : (fun d => ((f ;|> g) t d).forget) = ((fun d => (f t d).forget) >>= fun t' d => (g t' d).forget : Dec τ) := by
      funext d
      show _ = Dec.bind _ _ d
      unfold KDec.andThen Dec.bind
      cases hf : f t d <;> simp only [hf, Kept.forget]
    rw [e]
    exact (h.longer t).bind h'.longer
  ok t d t' d' hc e := by
    unfold KDec.andThen at e
    cases hf : f t d with
    | panic => rw [hf] at e; cases e
    | err e' r d1 => rw [hf] at e; cases e
    | ok t1 d1 =>
      rw [hf] at e
      obtain ⟨h1, h2⟩ := h.ok t d t1 d1 hc hf
      obtain ⟨h3, h4⟩ := h'.ok t1 d1 t' d' h2 e
      refine ⟨?_, h4⟩
      rw [← h.trunc t', h3, h1]
  err t d d2 tail e r d' t' d2' hc hd hd2 hr h1 h2 := by
    unfold KDec.andThen at h1 h2
    cases hf2 : f t d2 with
    | panic => rw [hf2] at h2; cases h2
    | err e' r' d1 => rw [hf2] at h2; cases h2
    | ok t1 d1 =>
      rw [hf2] at h2
      obtain ⟨h3, h4⟩ := h.ok t d2 t1 d1 hc hf2
      obtain ⟨h5, _⟩ := h'.ok t1 d1 t' d2' h4 h2
      cases hf : f t d with
      | panic => rw [hf] at h1; cases h1
      | err e' r' d3 =>
        rw [hf] at h1
        cases h1
        refine .inl ?_
        have := h.err t d d2 tail _ _ _ _ _ hc hd hd2 hr hf hf2
        rw [← h5] at this
        exact (h.near _ _).1 this
      | ok t3 d3 =>
        rw [hf] at h1
        have hff : (f t d).forget = .ok t3 d3 := by rw [hf]; rfl
        obtain ⟨n, hn, rfl, h6⟩ := (h.longer t).ok d d2 tail hd hd2 hr t3 d3 hff
        have h6' := forget_ok h6
        rw [hf2] at h6'
        cases h6'
        have hl : n ≤ d2.rest.length := by rw [hr, List.length_append]; omega
        exact .inr (h'.err t1 (d.skip n) (d2.skip n) tail _ _ _ _ _ h4 (Decoder.skip_valid hd hn)
          (Decoder.skip_valid hd2 hl) (by rw [Decoder.skip_rest hd2, Decoder.skip_rest hd, hr,
            List.drop_append_of_le_length hn]) h1 h2)

theorem field {m : Dec α} {z : α} {set : τ → α → τ} {c c' : τ → τ} (hm : Longer m) (htr : ∀ y, c (c' y) = c y)
    (h1 : ∀ t x, c (set t x) = c t) (h2 : ∀ t x, c' (set t x) = set (c t) x) (hz : ∀ t, set (c t) z = c t) :
    Parts (KDec.field m z set) c c' (fun r y => r = c y) where
  trunc := htr
  near r y := by rw [htr]
  longer t := by
    have e : (fun d => (KDec.field m z set t d).forget) = Dec.field m set t := funext fun d => KStep.field t d
    rw [e]; exact LongerStep.field hm t
  ok t d t' d' hc e := by
    unfold KDec.field at e
    cases hmd : m d with
    | panic => rw [hmd] at e; cases e
    | err e' d1 => rw [hmd] at e; cases e
    | ok x d1 =>
      rw [hmd] at e
      cases e
      exact ⟨by rw [h1, hc], by rw [h2, hc]⟩
  err t d d2 tail e r d' t' d2' hc hd hd2 hr h3 h4 := by
    unfold KDec.field at h3 h4
    cases hmd : m d with
    | panic => rw [hmd] at h3; cases h3
    | ok x d1 => rw [hmd] at h3; cases h3
    | err e' d1 =>
      rw [hmd] at h3
      cases h3
      cases hm2 : m d2 with
      | panic => rw [hm2] at h4; cases h4
      | err e' d1 => rw [hm2] at h4; cases h4
      | ok x d1 =>
        rw [hm2] at h4
        cases h4
        rw [h1]
        exact (congrArg (set · z) hc.symm).trans (hz t)

theorem onlyIf {p : Prop} [Decidable p] {f : KDec τ} {c c' : τ → τ} {E : τ → τ → Prop} (h : Parts f c c' E)
    (hc : ∀ t, c' (c t) = c t) : Parts (KDec.onlyIf p f) c c' E where
  trunc := h.trunc
  near := h.near
  longer t := by
    by_cases hp : p
    · have e : (fun d => (KDec.onlyIf p f t d).forget) = fun d => (f t d).forget := by
        funext d; unfold KDec.onlyIf; rw [if_pos hp]
      rw [e]; exact h.longer t
    · have e : (fun d => (KDec.onlyIf p f t d).forget) = (Pure.pure t : Dec τ) := by
        funext d; unfold KDec.onlyIf; rw [if_neg hp]; rfl
      rw [e]; exact .pure t
  ok t d t' d' hct e := by
    unfold KDec.onlyIf at e
    by_cases hp : p
    · rw [if_pos hp] at e; exact h.ok t d t' d' hct e
    · rw [if_neg hp] at e
      cases e
      exact ⟨hct, (congrArg c' hct.symm).trans ((hc t).trans hct)⟩
  err t d d2 tail e r d' t' d2' hct hd hd2 hr h3 h4 := by
    unfold KDec.onlyIf at h3 h4
    by_cases hp : p
    · rw [if_pos hp] at h3 h4; exact h.err t d d2 tail e r d' t' d2' hct hd hd2 hr h3 h4
    · rw [if_neg hp] at h3; cases h3

theorem loop_length {f : Dec α} : ∀ n d l d', Dec.loop f n d = .ok l d' → l.length = n
  | 0, _, _, _, h => by cases h; rfl
  | n + 1, d, l, d', h => by
    have h' : Dec.bind f (fun x => Dec.bind (Dec.loop f n) fun xs => Dec.pure (x :: xs)) d = .ok l d' := h
    unfold Dec.bind at h'
    cases hf : f d with
    | panic => rw [hf] at h'; cases h'
    | err e d1 => rw [hf] at h'; cases h'
    | ok x d1 =>
      rw [hf] at h'
      simp only at h'
      cases hg : Dec.loop f n d1 with
      | panic => rw [hg] at h'; cases h'
      | err e d2 => rw [hg] at h'; cases h'
      | ok xs d2 =>
        rw [hg] at h'
        cases h'
        rw [List.length_cons, loop_length n d1 xs _ hg]

/-- The loop over the items. -/
theorem items {dec : Decoder → Kept α} (z : α) (hl : Longer fun d => (dec d).forget) : ∀ n (d d2 : Decoder) tail,
    d.Valid → d2.Valid → d2.rest = d.rest ++ tail → ∀ e xs d' ys d2', KDec.items dec z n d = .err e xs d' →
      KDec.items dec z n d2 = .ok ys d2' → ∃ j, j < ys.length ∧ xs = ys.take j ++ List.replicate (ys.length - j) z
  | 0, _, _, _, _, _, _, _, _, _, _, _, h1, _ => by cases h1
  | n + 1, d, d2, tail, hd, hd2, hr, e, xs, d', ys, d2', h1, h2 => by
    unfold KDec.items at h1 h2
    cases hx2 : dec d2 with
    | panic => rw [hx2] at h2; cases h2
    | err e' t d1 => rw [hx2] at h2; cases h2
    | ok x d3 =>
      rw [hx2] at h2
      simp only at h2
      cases hi2 : KDec.items dec z n d3 with
      | panic => rw [hi2] at h2; cases h2
      | err e' t d1 => rw [hi2] at h2; cases h2
      | ok ys' d4 =>
        rw [hi2] at h2
        cases h2
        have hlen : ys'.length = n := by
          have h3 := KStep.items z (f := fun d => (dec d).forget) (fun _ => rfl) n d3
          rw [hi2] at h3
          exact loop_length n d3 ys' _ h3.symm
        cases hx : dec d with
        | panic => rw [hx] at h1; cases h1
        | err e' t d1 =>
          rw [hx] at h1
          cases h1
          exact ⟨0, by simp, by simp [List.replicate_succ, hlen]⟩
        | ok x' d1 =>
          rw [hx] at h1
          simp only at h1
          have hff : (dec d).forget = .ok x' d1 := by rw [hx]; rfl
          obtain ⟨k, hk, rfl, h6⟩ := hl.ok d d2 tail hd hd2 hr x' d1 hff
          have h6' := forget_ok h6
          rw [hx2] at h6'
          cases h6'
          have hl2 : k ≤ d2.rest.length := by rw [hr, List.length_append]; omega
          cases hi : KDec.items dec z n (d.skip k) with
          | panic => rw [hi] at h1; cases h1
          | ok xs' d5 => rw [hi] at h1; cases h1
          | err e' xs' d5 =>
            rw [hi] at h1
            cases h1
            obtain ⟨j, hj, rfl⟩ := items z hl n (d.skip k) (d2.skip k) tail (Decoder.skip_valid hd hk)
              (Decoder.skip_valid hd2 hl2) (by rw [Decoder.skip_rest hd2, Decoder.skip_rest hd, hr,
                List.drop_append_of_le_length hk]) _ _ _ _ _ hi hi2
            exact ⟨j + 1, by simp; omega, by simp⟩

theorem structs {dec : Decoder → Kept α} {z : α} {get : τ → Slice α} {set : τ → Slice α → τ} {c c' : τ → τ}
    (hl : Longer fun d => (dec d).forget) (htr : ∀ y, c (c' y) = c y) (hg : ∀ y, get (c' y) = get y)
    (h1 : ∀ t x, c (set t x) = c t) (h2 : ∀ t x, c' (set t x) = set (c t) x) (h3 : ∀ t x, get (set t x) = x)
    (hc : ∀ t, c' (c t) = c t) (hs : ∀ t, set t (get t) = t) :
    Parts (KDec.fieldStructs dec z set) c c' (fun r y => r = c y ∨ Cut.begun z get set c r y) where
  trunc := htr
  near r y := by unfold Cut.begun; rw [htr, hg]
  longer t := by
    have e : (fun d => (KDec.fieldStructs dec z set t d).forget) = Dec.fieldStructs (fun d => (dec d).forget) get set t :=
      funext fun d => KStep.structs hs (fun _ => rfl) t d
    rw [e]; exact LongerStep.structs hl t
  ok t d t' d' hct e := by
    unfold KDec.fieldStructs at e
    cases ha : Dec.arrayLength d with
    | panic => rw [ha] at e; cases e
    | err e' d1 => rw [ha] at e; cases e
    | ok n d1 =>
      rw [ha] at e
      simp only at e
      by_cases hn : n ≥ 0
      · rw [if_pos hn] at e
        cases hi : KDec.items dec z n.toNat d1 with
        | panic => rw [hi] at e; cases e
        | err e' l d2 => rw [hi] at e; cases e
        | ok l d2 =>
          rw [hi] at e
          cases e
          exact ⟨by rw [h1, hct], by rw [h2, hct]⟩
      · rw [if_neg hn] at e
        cases e
        exact ⟨hct, (congrArg c' hct.symm).trans ((hc t).trans hct)⟩
  err t d d2 tail e r d' t' d2' hct hd hd2 hr h4 h5 := by
    unfold KDec.fieldStructs at h4 h5
    cases ha2 : Dec.arrayLength d2 with
    | panic => rw [ha2] at h5; cases h5
    | err e' d1 => rw [ha2] at h5; cases h5
    | ok n2 d1 =>
      rw [ha2] at h5
      simp only at h5
      have ht' : c t' = t := by
        by_cases hn : n2 ≥ 0
        · rw [if_pos hn] at h5
          cases hi : KDec.items dec z n2.toNat d1 with
          | panic => rw [hi] at h5; cases h5
          | err e' l d3 => rw [hi] at h5; cases h5
          | ok l d3 => rw [hi] at h5; cases h5; rw [h1, hct]
        · rw [if_neg hn] at h5; cases h5; exact hct
      cases ha : Dec.arrayLength d with
      | panic => rw [ha] at h4; cases h4
      | err e' d3 =>
        rw [ha] at h4
        cases h4
        exact .inl ht'.symm
      | ok n d3 =>
        rw [ha] at h4
        simp only at h4
        obtain ⟨k, hk, rfl, h6⟩ := Longer.arrayLength.ok d d2 tail hd hd2 hr n d3 ha
        rw [ha2] at h6
        injection h6 with h6 h7
        subst h6 h7
        have hl2 : k ≤ d2.rest.length := by rw [hr, List.length_append]; omega
        by_cases hn : n2 ≥ 0
        · rw [if_pos hn] at h4 h5
          cases hi : KDec.items dec z n2.toNat (d.skip k) with
          | panic => rw [hi] at h4; cases h4
          | ok l d4 => rw [hi] at h4; cases h4
          | err e' l d4 =>
            rw [hi] at h4
            cases h4
            cases hi2 : KDec.items dec z n2.toNat (d2.skip k) with
            | panic => rw [hi2] at h5; cases h5
            | err e' l d4 => rw [hi2] at h5; cases h5
            | ok l2 d5 =>
              rw [hi2] at h5
              cases h5
              obtain ⟨j, hj, rfl⟩ := items z hl _ (d.skip k) (d2.skip k) tail (Decoder.skip_valid hd hk)
                (Decoder.skip_valid hd2 hl2) (by rw [Decoder.skip_rest hd2, Decoder.skip_rest hd, hr,
                  List.drop_append_of_le_length hk]) _ _ _ _ _ hi hi2
              exact .inr ⟨l2, j, h3 _ _, hj, by rw [h1, hct]⟩
        · rw [if_neg hn] at h4; cases h4

end Parts

/-- It is `Decode`, and leaves what is to be left. -/
structure KeptMsg.Holds {M : MsgType} (K : KeptMsg M) (L : Layout M) : Prop where
  same : ∀ v t0 d, (K.decode v t0 d).forget = M.decode v t0 d
  cut : ∀ v t, L.Fits v t → ∀ n, n < (L.wire v t).length → ∀ d : Decoder, d.Valid → d.rest = (L.wire v t).take n →
    ∃ d', K.decode v M.zero d = .err .shortBuffer (K.cut v n t) d'
  whole : ∀ v t, L.Fits v t → (L.wire v t).length < 2 ^ 62 → K.cut v (L.wire v t).length t = L.seen v t M.zero
  longer : ∀ v t0, Longer (M.decode v t0)
  filled : ∀ v, FilledStep (2 ^ 38) (2 ^ 38) (M.decode v)
  part : ∀ v (d d2 : Decoder) tail, d.Valid → d2.Valid → d2.rest = d.rest ++ tail → ∀ e r d' y d2',
    K.decode v M.zero d = .err e r d' → M.decode v M.zero d2 = .ok y d2' → K.Part r y

theorem KeptMsg.holds {M : MsgType} {L : Layout M} {K : KeptMsg M} (hL : Lawful M L) (same : ∀ v, KStep (K.decode v) (M.decode v))
    {stop : Int16 → M.T → Nat} {c : Int16 → M.T → Nat → M.T} (h0 : ∀ v t n, c v t n = M.zero)
    (h : ∀ v t, L.Fits v t → Cuts (K.decode v) 0 (L.wire v t) (stop v t) (c v t) (K.cut v · t))
    {c0 c1 : M.T → M.T} {E : M.T → M.T → Prop} (hz : c0 M.zero = M.zero) (hp : ∀ v, Parts (K.decode v) c0 c1 E)
    (hE : ∀ r y, E r y → K.Part r y) {Z N : Nat} (hf : ∀ v, FilledStep Z N (M.decode v)) (hZ : Z ≤ 2 ^ 38)
    (hN : N ≤ 2 ^ 38) : K.Holds L where
  filled v := (hf v).mono hZ hN
  same := same
  longer v t0 := by
    have := (hp v).longer t0
    rwa [show (fun d => (K.decode v t0 d).forget) = M.decode v t0 from funext fun d => same v t0 d] at this
  part v d d2 tail hd hd2 hr e r d' y d2' h1 h2 := by
    rw [← same v M.zero d2] at h2
    exact hE _ _ ((hp v).err M.zero d d2 tail e r d' y d2' hz hd hd2 hr h1 (forget_ok h2))
  cut v t hf n hn d hd hr := by
    have hc := h v t hf
    have e := hc.stop_eq
    obtain ⟨d', h1⟩ := hc.err n (Nat.zero_le _) (by omega) d hd hr
    rw [h0] at h1
    exact ⟨d', h1⟩
  whole v t hf hn := by
    have hc := h v t hf
    have e := hc.stop_eq
    have h1 := hc.ok (L.wire v t).length (by omega) _ (newDecoder_valid hn) [] (by simp)
    have h2 := same v M.zero (newDecoder (L.wire v t) (L.wire v t).length)
    rw [h0] at h1
    rw [h1, (hL.reads v t hf M.zero).1 _ (newDecoder_valid hn) [] (by simp)] at h2
    exact (Res.ok.inj h2).1

end Kafka
