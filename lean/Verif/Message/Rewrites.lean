import Verif.Message.Reuse
/-!
Encoding what was decoded.
-/
namespace Kafka

/-- `cs` is `bs`, except that some of the bytes are zero. -/
def Zeroed (bs cs : List Byte) : Prop :=
  cs.length = bs.length ∧ ∀ i, i < bs.length → cs[i]? = bs[i]? ∨ cs[i]? = some 0

theorem Zeroed.refl (bs : List Byte) : Zeroed bs bs := ⟨rfl, fun _ _ => .inl rfl⟩

theorem Zeroed.zeros (bs : List Byte) {n : Nat} (h : bs.length = n) : Zeroed bs (List.replicate n 0) :=
  ⟨by simp [h], fun i hi => .inr (by simp [← h, hi])⟩

theorem Zeroed.append {a b c d : List Byte} (h : Zeroed a b) (h' : Zeroed c d) : Zeroed (a ++ c) (b ++ d) := by
  refine ⟨by rw [List.length_append, List.length_append, h.1, h'.1], fun i hi => ?_⟩
  rw [List.length_append] at hi
  by_cases hl : i < a.length
  · rw [List.getElem?_append_left hl, List.getElem?_append_left (by rw [h.1]; exact hl)]
    exact h.2 i hl
  · have hb := h.1
    rw [List.getElem?_append_right (by omega), List.getElem?_append_right (by omega), hb]
    exact h'.2 _ (by omega)

/-- What `m` has read is written by `w` with as many bytes, and the same ones but for zeros; it can be written. -/
def Rewrites {α : Type} (m : Dec α) (w : α → List Byte) (F : α → Prop) : Prop :=
  ∀ (d : Decoder) x d', d.Valid → m d = .ok x d' →
    F x ∧ ∃ n, n ≤ d.rest.length ∧ d' = d.skip n ∧ Zeroed (d.rest.take n) (w x)

namespace Rewrites
variable {α β : Type}

theorem fixed {m : Dec α} {k : Nat} {g : List Byte → Option α} {w : α → List Byte}
    (hm : ∀ d, d.Valid → m d = (fixedOut k g d.rest).lift d)
    (hg : ∀ bs x, k ≤ bs.length → g bs = some x → Zeroed (bs.take k) (w x)) : Rewrites m w (fun _ => True) := by
  intro d x d' hd h
  rw [hm d hd] at h
  unfold fixedOut at h
  split at h
  · cases h
  · rename_i hl
    split at h
    · rename_i a ha
      obtain ⟨rfl, rfl⟩ := Res.ok.inj h
      exact ⟨trivial, k, by omega, rfl, hg _ _ (by omega) ha⟩
    · cases h

theorem bool : Rewrites Dec.bool Wire.bool (fun _ => True) := fixed bool_spec (by
  intro bs x hl h
  match bs, hl with
  | b :: t, _ =>
    simp only [List.getElem?_cons_zero, Option.map_some, Option.some.injEq] at h
    subst h
    refine ⟨rfl, fun i hi => ?_⟩
    have hi : i = 0 := by simp at hi; omega
    subst hi
    by_cases h1 : b = 1
    · subst h1; exact .inl rfl
    · have h2 : (b == 1) = false := by simpa using h1
      rw [h2]
      exact .inr rfl)

theorem int8 : Rewrites Dec.int8 Wire.int8 (fun _ => True) := fixed int8_spec (by
  intro bs x hl h
  match bs, hl with
  | b :: t, _ =>
    simp only [List.getElem?_cons_zero, Option.map_some, Option.some.injEq] at h
    subst h
    rw [wire_int8]
    exact .refl _)

theorem ext_last {n : Nat} (x : BitVec n) (b : Byte) : (x ++ b).extractLsb' 0 8 = b := by
  ext k hk
  simp [BitVec.getLsbD_append, hk]

theorem ext_init {n : Nat} (x : BitVec n) (b : Byte) (j : Nat) : (x ++ b).extractLsb' (j + 8) 8 = x.extractLsb' j 8 := by
  ext k hk
  simp [BitVec.getLsbD_append, show ¬ (j + 8 + k < 8) by omega, show j + 8 + k - 8 = j + k by omega]

theorem ext_all (b : Byte) : b.extractLsb' 0 8 = b := by
  ext k hk
  simp

/-- Bytes that are equal one by one. -/
theorem cons_eq {a b : Byte} {s t : List Byte} (h : a = b) (h' : s = t) : a :: s = b :: t := by rw [h, h']

theorem be16_of {bs : List Byte} {v : BitVec 16} (hl : 2 ≤ bs.length) (h : beUint16 bs = some v) : be16 v = bs.take 2 := by
  match bs, hl with
  | a :: b :: t, _ =>
    obtain rfl := Option.some.inj h
    exact (cons_eq ((ext_init _ _ 0).trans (ext_all _)) (cons_eq (ext_last _ _) rfl))

theorem be32_of {bs : List Byte} {v : BitVec 32} (hl : 4 ≤ bs.length) (h : beUint32 bs = some v) : be32 v = bs.take 4 := by
  match bs, hl with
  | a :: b :: c :: e :: t, _ =>
    obtain rfl := Option.some.inj h
    exact (cons_eq ((ext_init _ _ 16).trans ((ext_init _ _ 8).trans ((ext_init _ _ 0).trans (ext_all _)))) (cons_eq ((ext_init _ _ 8).trans ((ext_init _ _ 0).trans (ext_last _ _))) (cons_eq ((ext_init _ _ 0).trans (ext_last _ _)) (cons_eq (ext_last _ _) rfl))))

theorem be64_of {bs : List Byte} {v : BitVec 64} (hl : 8 ≤ bs.length) (h : beUint64 bs = some v) : be64 v = bs.take 8 := by
  match bs, hl with
  | a :: b :: c :: e :: f :: g :: i :: j :: t, _ =>
    obtain rfl := Option.some.inj h
    exact (cons_eq ((ext_init _ _ 48).trans ((ext_init _ _ 40).trans ((ext_init _ _ 32).trans ((ext_init _ _ 24).trans ((ext_init _ _ 16).trans ((ext_init _ _ 8).trans ((ext_init _ _ 0).trans (ext_all _)))))))) (cons_eq ((ext_init _ _ 40).trans ((ext_init _ _ 32).trans ((ext_init _ _ 24).trans ((ext_init _ _ 16).trans ((ext_init _ _ 8).trans ((ext_init _ _ 0).trans (ext_last _ _))))))) (cons_eq ((ext_init _ _ 32).trans ((ext_init _ _ 24).trans ((ext_init _ _ 16).trans ((ext_init _ _ 8).trans ((ext_init _ _ 0).trans (ext_last _ _)))))) (cons_eq ((ext_init _ _ 24).trans ((ext_init _ _ 16).trans ((ext_init _ _ 8).trans ((ext_init _ _ 0).trans (ext_last _ _))))) (cons_eq ((ext_init _ _ 16).trans ((ext_init _ _ 8).trans ((ext_init _ _ 0).trans (ext_last _ _)))) (cons_eq ((ext_init _ _ 8).trans ((ext_init _ _ 0).trans (ext_last _ _))) (cons_eq ((ext_init _ _ 0).trans (ext_last _ _)) (cons_eq (ext_last _ _) rfl))))))))

/-- An integer is written as it was read. -/
theorem int16' (d : Decoder) (x : Int16) (d' : Decoder) (hd : d.Valid) (h : Dec.int16 d = .ok x d') :
    2 ≤ d.rest.length ∧ d' = d.skip 2 ∧ Wire.int16 x = d.rest.take 2 := by
  rw [int16_spec d hd] at h
  unfold fixedOut at h
  split at h
  · cases h
  · rename_i hl
    split at h
    · rename_i a ha
      obtain ⟨rfl, rfl⟩ := Res.ok.inj h
      obtain ⟨v, hv, rfl⟩ := Option.map_eq_some_iff.1 ha
      exact ⟨by omega, rfl, by rw [wire_int16]; exact be16_of (by omega) hv⟩
    · cases h

theorem int32' (d : Decoder) (x : Int32) (d' : Decoder) (hd : d.Valid) (h : Dec.int32 d = .ok x d') :
    4 ≤ d.rest.length ∧ d' = d.skip 4 ∧ Wire.int32 x = d.rest.take 4 := by
  rw [int32_spec d hd] at h
  unfold fixedOut at h
  split at h
  · cases h
  · rename_i hl
    split at h
    · rename_i a ha
      obtain ⟨rfl, rfl⟩ := Res.ok.inj h
      obtain ⟨v, hv, rfl⟩ := Option.map_eq_some_iff.1 ha
      exact ⟨by omega, rfl, by rw [wire_int32]; exact be32_of (by omega) hv⟩
    · cases h

theorem int16 : Rewrites Dec.int16 Wire.int16 (fun _ => True) := fun d x d' hd h =>
  have ⟨h1, h2, h3⟩ := int16' d x d' hd h
  ⟨trivial, 2, h1, h2, h3 ▸ .refl _⟩
theorem int32 : Rewrites Dec.int32 Wire.int32 (fun _ => True) := fun d x d' hd h =>
  have ⟨h1, h2, h3⟩ := int32' d x d' hd h
  ⟨trivial, 4, h1, h2, h3 ▸ .refl _⟩
theorem int64 : Rewrites Dec.int64 Wire.int64 (fun _ => True) := fixed int64_spec (by
  intro bs x hl h
  obtain ⟨v, hv, rfl⟩ := Option.map_eq_some_iff.1 h
  rw [wire_int64, show (Int64.ofBitVec v).toBitVec = v from rfl, be64_of hl hv]
  exact .refl _)

theorem takeBytes' {n : Int} (hn : -(2 ^ 63) ≤ n) (d : Decoder) (x : List Byte) (d' : Decoder) (hd : d.Valid)
    (h : Dec.takeBytes n d = .ok x d') :
    0 ≤ n ∧ n.toNat ≤ d.rest.length ∧ d' = d.skip n.toNat ∧ x = d.rest.take n.toNat := by
  rw [takeBytes_spec hn d hd] at h
  unfold takeOut at h
  split at h
  · cases h
  · split at h
    · cases h
    · obtain ⟨rfl, rfl⟩ := Res.ok.inj h
      exact ⟨by omega, by omega, rfl, rfl⟩

theorem bind_ok_inv {m : Dec α} {k : α → Dec β} {d : Decoder} {b : β} {d' : Decoder} (h : (m >>= k) d = .ok b d') :
    ∃ a d1, m d = .ok a d1 ∧ k a d1 = .ok b d' := by
  cases hm : m d with
  | ok a d1 => exact ⟨a, d1, rfl, by rw [bind_ok hm] at h; exact h⟩
  | err e d1 => rw [bind_err hm] at h; cases h
  | panic => rw [bind_panic hm] at h; cases h

theorem take_add (l : List Byte) (a b : Nat) : l.take (a + b) = l.take a ++ (l.drop a).take b := List.take_add

theorem string : Rewrites Dec.string Wire.string FitsString := by
  intro d x d' hd h
  obtain ⟨n, d1, h1, h2⟩ := bind_ok_inv h
  obtain ⟨hl, rfl, hw⟩ := int16' d n d1 hd h1
  have hv := Decoder.skip_valid hd hl
  by_cases hn : n = -1
  · rw [if_pos hn] at h2
    obtain ⟨rfl, rfl⟩ := Res.ok.inj (h2 : Res.ok [] (d.skip 2) = .ok x d')
    exact ⟨by unfold FitsString; decide, 2, hl, rfl, .zeros (n := 2) _ (by rw [List.length_take]; omega)⟩
  · rw [if_neg hn] at h2
    have hb := int16_bounds n
    obtain ⟨h0, h3, rfl, rfl⟩ := takeBytes' (by omega) _ _ _ hv h2
    rw [Decoder.skip_rest hd] at h3 ⊢
    rw [List.length_drop] at h3
    have hlen : ((d.rest.drop 2).take n.toInt.toNat).length = n.toInt.toNat := by rw [List.length_take, List.length_drop]; omega
    refine ⟨by unfold FitsString; rw [hlen]; omega, 2 + n.toInt.toNat, by omega, by rw [Decoder.skip_skip], ?_⟩
    rw [take_add, Wire.string, hlen]
    refine Zeroed.append ?_ (.refl _)
    rw [← hw]
    have : Int16.ofNat n.toInt.toNat = n := by
      apply Int16.toInt_inj.1
      rw [Int16.toInt_ofNat_of_lt (by omega)]
      omega
    rw [this]
    exact .refl _

theorem ofNat32 {n : Int32} (h : 0 ≤ n.toInt) : Int32.ofNat n.toInt.toNat = n := by
  have := int32_bounds n
  apply Int32.toInt_inj.1
  rw [Int32.toInt_ofNat_of_lt (by omega)]
  omega

theorem bytes : Rewrites Dec.bytes Wire.bytes FitsSlice := by
  intro d x d' hd h
  obtain ⟨n, d1, h1, h2⟩ := bind_ok_inv h
  obtain ⟨hl, rfl, hw⟩ := int32' d n d1 hd h1
  have hv := Decoder.skip_valid hd hl
  have hb := int32_bounds n
  obtain ⟨y, d2, h3, h4⟩ := bind_ok_inv h2
  obtain ⟨h0, h5, rfl, rfl⟩ := takeBytes' (by omega) _ _ _ hv h3
  obtain ⟨rfl, rfl⟩ := Res.ok.inj (h4 : Res.ok (some _) _ = .ok x d')
  rw [Decoder.skip_rest hd] at h5 ⊢
  rw [List.length_drop] at h5
  have hlen : ((d.rest.drop 4).take n.toInt.toNat).length = n.toInt.toNat := by rw [List.length_take, List.length_drop]; omega
  refine ⟨?_, 4 + n.toInt.toNat, by omega, by rw [Decoder.skip_skip], ?_⟩
  · show ((d.rest.drop 4).take n.toInt.toNat).length < 2 ^ 31
    rw [hlen]; omega
  · rw [take_add]
    show Zeroed _ (Wire.int32 (Int32.ofNat ((d.rest.drop 4).take n.toInt.toNat).length) ++ _)
    rw [hlen, ofNat32 h0, hw]
    exact .refl _

theorem loop {f : Dec α} {w : α → List Byte} {F : α → Prop} (h : Rewrites f w F) : ∀ k,
    Rewrites (Dec.loop f k) (fun l => l.flatMap w) (fun l => l.length = k ∧ ∀ x ∈ l, F x)
  | 0 => by
    intro d x d' hd h1
    obtain ⟨rfl, rfl⟩ := Res.ok.inj (h1 : Res.ok [] d = .ok x d')
    exact ⟨⟨rfl, by simp⟩, 0, by omega, by simp, .refl _⟩
  | k + 1 => by
    intro d x d' hd h1
    obtain ⟨a, d1, h2, h3⟩ := bind_ok_inv h1
    obtain ⟨hF, n, hn, rfl, hz⟩ := h d a d1 hd h2
    have hv := Decoder.skip_valid hd hn
    obtain ⟨l, d2, h4, h5⟩ := bind_ok_inv h3
    obtain ⟨⟨hlen, hall⟩, n', hn', rfl, hz'⟩ := loop h k _ l d2 hv h4
    obtain ⟨rfl, rfl⟩ := Res.ok.inj (h5 : Res.ok (a :: l) _ = .ok x d')
    rw [Decoder.skip_rest hd] at hn' hz'
    rw [List.length_drop] at hn'
    refine ⟨⟨by simp [hlen], ?_⟩, n + n', by omega, by rw [Decoder.skip_skip], ?_⟩
    · intro y hy
      rcases List.mem_cons.1 hy with rfl | hy
      · exact hF
      · exact hall y hy
    · rw [take_add]
      show Zeroed _ (w a ++ l.flatMap w)
      exact hz.append hz'

theorem arrayOf {f : Dec α} {w : α → List Byte} {F : α → Prop} (h : Rewrites f w F) :
    Rewrites (Dec.arrayOf f) (Wire.nullableArray w) (FitsAll F) := by
  intro d x d' hd h1
  obtain ⟨m, d1, h2, h3⟩ := bind_ok_inv h1
  obtain ⟨n, d2, h4, h5⟩ := bind_ok_inv h2
  obtain ⟨hl, rfl, hw⟩ := int32' d n d2 hd h4
  obtain ⟨rfl, rfl⟩ := Res.ok.inj (h5 : Res.ok n.toInt _ = .ok m d1)
  have hv := Decoder.skip_valid hd hl
  have hb := int32_bounds n
  split at h3
  · rename_i hn
    obtain ⟨rfl, rfl⟩ := Res.ok.inj (h3 : Res.ok none _ = .ok x d')
    refine ⟨⟨by show 0 < 2 ^ 31; decide, by intro y hy; cases hy⟩, 4, hl, rfl, ?_⟩
    have : n = -1 := Int32.toInt_inj.1 hn
    subst this
    show Zeroed _ (Wire.int32 (-1))
    rw [hw]
    exact .refl _
  · split at h3
    · cases h3
    · obtain ⟨l, d2, h6, h7⟩ := bind_ok_inv h3
      obtain ⟨⟨hlen, hall⟩, n', hn', rfl, hz'⟩ := loop h _ _ l d2 hv h6
      obtain ⟨rfl, rfl⟩ := Res.ok.inj (h7 : Res.ok (some l) _ = .ok x d')
      rw [Decoder.skip_rest hd] at hn' hz'
      rw [List.length_drop] at hn'
      refine ⟨⟨?_, hall⟩, 4 + n', by omega, by rw [Decoder.skip_skip], ?_⟩
      · show l.length < 2 ^ 31
        omega
      · rw [take_add]
        show Zeroed _ (Wire.int32 (Int32.ofNat l.length) ++ _)
        rw [hlen, ofNat32 (by omega), hw]
        exact (Zeroed.refl _).append hz'

/-- An array of structures that was nil before. -/
theorem structs {f : Dec α} {w : α → List Byte} {F : α → Prop} (h : Rewrites f w F) :
    Rewrites (Dec.structs f none) (Wire.array w) (FitsAll F) := by
  intro d x d' hd h1
  obtain ⟨m, d1, h2, h3⟩ := bind_ok_inv h1
  obtain ⟨n, d2, h4, h5⟩ := bind_ok_inv h2
  obtain ⟨hl, rfl, hw⟩ := int32' d n d2 hd h4
  obtain ⟨rfl, rfl⟩ := Res.ok.inj (h5 : Res.ok n.toInt _ = .ok m d1)
  have hv := Decoder.skip_valid hd hl
  have hb := int32_bounds n
  split at h3
  · obtain ⟨l, d2, h6, h7⟩ := bind_ok_inv h3
    obtain ⟨⟨hlen, hall⟩, n', hn', rfl, hz'⟩ := loop h _ _ l d2 hv h6
    obtain ⟨rfl, rfl⟩ := Res.ok.inj (h7 : Res.ok (some l) _ = .ok x d')
    rw [Decoder.skip_rest hd] at hn' hz'
    rw [List.length_drop] at hn'
    refine ⟨⟨?_, hall⟩, 4 + n', by omega, by rw [Decoder.skip_skip], ?_⟩
    · show l.length < 2 ^ 31
      omega
    · rw [take_add]
      show Zeroed _ (Wire.int32 (Int32.ofNat l.length) ++ _)
      rw [hlen, ofNat32 (by omega), hw]
      exact (Zeroed.refl _).append hz'
  · obtain ⟨rfl, rfl⟩ := Res.ok.inj (h3 : Res.ok none _ = .ok x d')
    refine ⟨⟨by show 0 < 2 ^ 31; decide, by intro y hy; cases hy⟩, 4, hl, rfl, ?_⟩
    have e : Wire.array w none = List.replicate 4 0 := by
      show Wire.int32 (Int32.ofNat 0) ++ [] = _
      decide
    rw [e]
    exact .zeros _ (by rw [List.length_take]; omega)

theorem mono {m : Dec α} {w : α → List Byte} {F F' : α → Prop} (h : Rewrites m w F) (hF : ∀ x, F x → F' x) :
    Rewrites m w F' := fun d x d' hd h1 => have ⟨a, b⟩ := h d x d' hd h1; ⟨hF x a, b⟩

theorem int32Array : Rewrites Dec.int32Array Wire.int32Array FitsSlice := int32.arrayOf.mono fun _ h => h.1
theorem int64Array : Rewrites Dec.int64Array Wire.int64Array FitsSlice := int64.arrayOf.mono fun _ h => h.1
theorem stringArray : Rewrites Dec.stringArray Wire.stringArray FitsStrings := string.arrayOf

end Rewrites

/-- The same of a statement of `Decode`: before it the receiver is zero but for the fields in `c`, after it but for those in `c'`;
it is written by `p`. -/
structure RewriteStep {τ : Type} (s : τ → Dec τ) (c c' : τ → τ) (p : τ → List Byte) (F : τ → Prop) : Prop where
  mono : ∀ t, c (c' t) = c t
  wire : ∀ t, p (c' t) = p t
  fits : ∀ t, F (c' t) = F t
  run : ∀ t (d : Decoder) t' d', d.Valid → c t = t → s t d = .ok t' d' → c t' = t ∧ c' t' = t' ∧ F t' ∧
    ∃ n, n ≤ d.rest.length ∧ d' = d.skip n ∧ Zeroed (d.rest.take n) (p t')

namespace RewriteStep
variable {τ α : Type} {c c' c'' : τ → τ}

theorem nop (hc : ∀ t, c (c t) = c t) : RewriteStep (Dec.nop : τ → Dec τ) c c (fun _ => []) (fun _ => True) where
  mono := hc
  wire _ := rfl
  fits _ := rfl
  run t d t' d' _ ht h := by
    obtain ⟨rfl, rfl⟩ := Res.ok.inj (h : Res.ok t d = .ok t' d')
    exact ⟨ht, ht, trivial, 0, by omega, by simp, .refl _⟩

theorem andThen {s s' : τ → Dec τ} {p q : τ → List Byte} {F G : τ → Prop} (h : RewriteStep s c c' p F)
    (h' : RewriteStep s' c' c'' q G) : RewriteStep (s ;> s') c c'' (fun t => p t ++ q t) (fun t => F t ∧ G t) where
  mono t := by rw [← h.mono (c'' t), h'.mono, h.mono]
  wire t := by rw [← h.wire (c'' t), h'.mono, h.wire, h'.wire]
  fits t := by rw [← h.fits (c'' t), h'.mono, h.fits, h'.fits]
  run t d t' d' hd ht hs := by
    obtain ⟨t1, d1, h1, h2⟩ := Rewrites.bind_ok_inv hs
    obtain ⟨e1, e2, hF, n, hn, rfl, hz⟩ := h.run t d t1 d1 hd ht h1
    obtain ⟨e3, e4, hG, n', hn', rfl, hz'⟩ := h'.run t1 _ t' d' (Decoder.skip_valid hd hn) e2 h2
    rw [Decoder.skip_rest hd] at hn' hz'
    rw [List.length_drop] at hn'
    refine ⟨?_, e4, ⟨?_, hG⟩, n + n', by omega, by rw [Decoder.skip_skip], ?_⟩
    · rw [← h.mono, e3, e1]
    · rw [← h.fits, e3]; exact hF
    · rw [Rewrites.take_add, ← h.wire, e3]
      exact hz.append hz'

theorem field {m : Dec α} {w : α → List Byte} {P : α → Prop} {get : τ → α} {set : τ → α → τ} (h : Rewrites m w P)
    (hm : ∀ t, c (c' t) = c t) (hg : ∀ t, get (c' t) = get t) (hs : ∀ t x, get (set t x) = x)
    (hc : ∀ t x, c (set t x) = c t) (hc' : ∀ t x, c' (set t x) = set (c t) x) :
    RewriteStep (Dec.field m set) c c' (fun t => w (get t)) (fun t => P (get t)) where
  mono := hm
  wire t := congrArg w (hg t)
  fits t := congrArg P (hg t)
  run t d t' d' hd ht hr := by
    obtain ⟨x, d1, h1, h2⟩ := Rewrites.bind_ok_inv hr
    obtain ⟨hP, n, hn, rfl, hz⟩ := h d x d1 hd h1
    obtain ⟨rfl, rfl⟩ := Res.ok.inj (h2 : Res.ok (set t x) _ = .ok t' d')
    exact ⟨by rw [hc, ht], by rw [hc', ht], by simpa only [hs] using hP, n, hn, rfl, by rw [hs]; exact hz⟩

theorem structs {f : Dec α} {w : α → List Byte} {P : α → Prop} {get : τ → Slice α} {set : τ → Slice α → τ}
    (h : Rewrites f w P) (hz : ∀ t, get (c t) = none)
    (hm : ∀ t, c (c' t) = c t) (hg : ∀ t, get (c' t) = get t) (hs : ∀ t x, get (set t x) = x)
    (hc : ∀ t x, c (set t x) = c t) (hc' : ∀ t x, c' (set t x) = set (c t) x) :
    RewriteStep (Dec.fieldStructs f get set) c c' (fun t => Wire.array w (get t)) (fun t => FitsAll P (get t)) where
  mono := hm
  wire t := congrArg (Wire.array w) (hg t)
  fits t := congrArg (FitsAll P) (hg t)
  run t d t' d' hd ht hr := by
    obtain ⟨x, d1, h1, h2⟩ := Rewrites.bind_ok_inv hr
    rw [← ht, hz] at h1
    obtain ⟨hP, n, hn, rfl, hz⟩ := h.structs d x d1 hd h1
    obtain ⟨rfl, rfl⟩ := Res.ok.inj (h2 : Res.ok (set t x) _ = .ok t' d')
    exact ⟨by rw [hc, ht], by rw [hc', ht], by simpa only [hs] using hP, n, hn, rfl, by rw [hs]; exact hz⟩

theorem onlyIf {g : Prop} [Decidable g] {s : τ → Dec τ} {p : τ → List Byte} {F : τ → Prop} (h : RewriteStep s c c' p F)
    (hc : ∀ t, c' (c t) = c t) :
    RewriteStep (Dec.onlyIf g s) c c' (fun t => Wire.when g (p t)) (fun t => g → F t) where
  mono := h.mono
  wire t := by rw [h.wire]
  fits t := by rw [h.fits]
  run t d t' d' hd ht hr := by
    unfold Dec.onlyIf at hr
    by_cases hg : g
    · rw [if_pos hg] at hr
      obtain ⟨e1, e2, hF, n, hn, e3, hz⟩ := h.run t d t' d' hd ht hr
      exact ⟨e1, e2, fun _ => hF, n, hn, e3, by rw [Wire.when, if_pos hg]; exact hz⟩
    · rw [if_neg hg] at hr
      obtain ⟨rfl, rfl⟩ := Res.ok.inj (hr : Res.ok t d = .ok t' d')
      refine ⟨ht, ?_, fun hg' => absurd hg' hg, 0, by omega, by simp, by rw [Wire.when, if_neg hg]; exact .refl _⟩
      have := hc t
      rw [ht] at this
      exact this

/-- All statements, from a zero value. -/
theorem whole {s : τ → Dec τ} {p w : τ → List Byte} {F P : τ → Prop} (h : RewriteStep s c c' p F) (z : τ) (hz : c z = z)
    (hw : ∀ t, p t = w t) (hF : ∀ t, F t → P t) : Rewrites (s z) w P := by
  intro d x d' hd hr
  obtain ⟨_, _, h1, n, hn, e, h2⟩ := h.run z d x d' hd hz hr
  exact ⟨hF x h1, n, hn, e, hw x ▸ h2⟩

end RewriteStep
end Kafka
