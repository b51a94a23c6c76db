import Verif.Protocol.Parse
import Verif.Protocol.Lemmas
/-!
The client's decoders against `Ty.parse`, and the values `Ty.parse` gives.
-/
namespace Kafka.Protocol

open Ty Parsed

/-! ### Decoders -/

/-- The outcome `r` of a decoder at `d` is the one `p` predicts, with the value `g x` for `x`. -/
def Agrees {α β : Type} (d : Decoder) (g : β → α) (r : Res α) : Parsed β → Prop
  | .ok x n => n ≤ d.rest.length ∧ r = .ok (g x) (d.skip n)
  | .short => ∃ d', r = .err .shortBuffer d'
  | .bad => r = .panic

/-- The decoder does with any bytes what `p` says. -/
def Parses {α β : Type} (m : Dec α) (p : List Byte → Parsed β) (g : β → α) : Prop :=
  ∀ d, d.Valid → Agrees d g (m d) (p d.rest)

section
variable {α β γ δ : Type}

theorem Parses.pure (a : α) (x : β) (g : β → α) (h : g x = a) :
    Parses (Pure.pure a) (fun _ => value x) g := fun d _ => by
  subst h
  exact ⟨Nat.zero_le _, by rw [Decoder.skip_zero]; rfl⟩

theorem Parses.bind {m : Dec α} {k : α → Dec γ} {p : List Byte → Parsed β} {g : β → α}
    {q : β → List Byte → Parsed δ} {f : δ → γ} (hm : Parses m p g) (hk : ∀ x, Parses (k (g x)) (q x) f) :
    Parses (m >>= k) (fun bs => (p bs).next bs q) f := fun d hd => by
  have h := hm d hd
  cases hp : p d.rest with
  | ok x n =>
    rw [hp] at h
    obtain ⟨h1, h2⟩ := h
    have h3 := hk x _ (Decoder.skip_valid hd h1)
    rw [bind_ok h2]
    rw [Decoder.skip_rest hd] at h3
    simp only [next, hp]
    cases hq : q x (d.rest.drop n) with
    | ok y j =>
      rw [hq] at h3
      obtain ⟨h4, h5⟩ := h3
      refine ⟨?_, by rw [h5, Decoder.skip_skip]⟩
      rw [Decoder.skip_rest hd, List.length_drop] at h4
      omega
    | short => rw [hq] at h3; exact h3
    | bad => rw [hq] at h3; exact h3
  | short =>
    rw [hp] at h
    obtain ⟨d', h'⟩ := h
    simp only [next, hp]
    exact ⟨d', bind_err h'⟩
  | bad =>
    rw [hp] at h
    simp only [next, hp]
    exact bind_panic h

/-- `x, err := m(); …; return f(x)` -/
theorem Parses.map {m : Dec α} {p : List Byte → Parsed β} {g : β → α} {f : α → γ} {f' : β → δ} {g' : δ → γ}
    (hm : Parses m p g) (h : ∀ x, g' (f' x) = f (g x)) :
    Parses (m >>= fun a => Pure.pure (f a)) (fun bs => (p bs).next bs fun x _ => value (f' x)) g' :=
  hm.bind fun x => .pure _ _ _ (h x)

theorem Parses.ite {c c' : Prop} [Decidable c] [Decidable c'] {m k : Dec α} {p q : List Byte → Parsed β} {g : β → α}
    (hc : c ↔ c') (hm : c → Parses m p g) (hk : ¬ c → Parses k q g) :
    Parses (if c then m else k) (fun bs => if c' then p bs else q bs) g := by
  by_cases h : c
  · simp only [if_pos h, if_pos (hc.1 h)]; exact hm h
  · simp only [if_neg h, if_neg fun h' => h (hc.2 h')]; exact hk h

theorem Parses.congr {m : Dec α} {p q : List Byte → Parsed β} {g g' : β → α} (h : Parses m p g) (hp : p = q)
    (hg : g = g') : Parses m q g' := by subst hp hg; exact h

theorem Parses.fixed {m : Dec α} {w : Nat} {f : List Byte → Option α} {f' : List Byte → β} {g : β → α}
    (hm : ∀ d, d.Valid → m d = (fixedOut w f d.rest).lift d)
    (hf : ∀ bs, w ≤ bs.length → f bs = some (g (f' (bs.take w)))) : Parses m (fixed w f') g := fun d hd => by
  rw [hm d hd]
  unfold fixedOut Parsed.fixed
  by_cases hl : d.rest.length < w
  · rw [if_pos hl, if_pos hl]
    exact ⟨_, rfl⟩
  · rw [if_neg hl, if_neg hl, hf _ (by omega)]
    exact ⟨by omega, rfl⟩

end

theorem toNat_snoc {w : Nat} (x : BitVec w) (b : Byte) : (x ++ b).toNat = 256 * x.toNat + b.toNat := by
  rw [BitVec.toNat_append, ← Nat.shiftLeft_add_eq_or_of_lt b.isLt, Nat.shiftLeft_eq]; omega

theorem parses_bool : Parses Dec.bool (fixed 1 fun bs => unsigned bs == 1) id :=
  .fixed bool_spec fun bs h => by
    match bs, h with
    | b :: _, _ =>
      simp only [List.getElem?_cons_zero, Option.map_some, List.take_succ_cons, List.take_zero, id, unsigned,
        List.foldl_cons, List.foldl_nil]
      congr 1
      rw [Bool.eq_iff_iff]
      simp only [beq_iff_eq]
      exact ⟨fun h => by rw [h]; rfl, fun h => BitVec.eq_of_toNat_eq (by simpa using h)⟩

theorem unsigned_int8 (bs : List Byte) (h : 1 ≤ bs.length) :
    bs[0]?.map Int8.ofBitVec = some (Int8.ofNat (unsigned (bs.take 1))) := by
  match bs, h with
  | b :: _, _ =>
    simp [unsigned, Int8.ofNat]
    rfl

theorem unsigned_int16 (bs : List Byte) (h : 2 ≤ bs.length) :
    (beUint16 bs).map Int16.ofBitVec = some (Int16.ofNat (unsigned (bs.take 2))) := by
  match bs, h with
  | a :: b :: _, _ =>
    have e : unsigned [a, b] = (a ++ b).toNat := by
      rw [toNat_snoc]; simp [unsigned]
    simp [beUint16, e, Int16.ofNat]
    rfl

theorem unsigned_int32 (bs : List Byte) (h : 4 ≤ bs.length) :
    (beUint32 bs).map Int32.ofBitVec = some (Int32.ofNat (unsigned (bs.take 4))) := by
  match bs, h with
  | a :: b :: c :: d :: _, _ =>
    have e : unsigned [a, b, c, d] = (a ++ b ++ c ++ d).toNat := by
      simp only [toNat_snoc]; simp [unsigned]
    simp [beUint32, e, Int32.ofNat]
    rfl

theorem unsigned_int64 (bs : List Byte) (h : 8 ≤ bs.length) :
    (beUint64 bs).map Int64.ofBitVec = some (Int64.ofNat (unsigned (bs.take 8))) := by
  match bs, h with
  | b0 :: b1 :: b2 :: b3 :: b4 :: b5 :: b6 :: b7 :: _, _ =>
    have e : unsigned [b0, b1, b2, b3, b4, b5, b6, b7] = (b0 ++ b1 ++ b2 ++ b3 ++ b4 ++ b5 ++ b6 ++ b7).toNat := by
      simp only [toNat_snoc]; simp [unsigned]
    simp [beUint64, e, Int64.ofNat]
    rfl

theorem parses_int8 : Parses Dec.int8 (fixed 1 fun bs => Int8.ofNat (unsigned bs)) id :=
  .fixed int8_spec unsigned_int8
theorem parses_int16 : Parses Dec.int16 parse16 id := .fixed int16_spec unsigned_int16
theorem parses_int32 : Parses Dec.int32 parse32 id := .fixed int32_spec unsigned_int32
theorem parses_int64 : Parses Dec.int64 (fixed 8 fun bs => Int64.ofNat (unsigned bs)) id :=
  .fixed int64_spec unsigned_int64

theorem parses_takeBytes {β : Type} {n : Int} (h1 : 0 ≤ n) (h2 : n < 2 ^ 63) (f : List Byte → β) (g : β → List Byte)
    (h : ∀ s, g (f s) = s) : Parses (Dec.takeBytes n) (fixed n.toNat f) g := fun d hd => by
  rw [takeBytes_spec (by omega) d hd]
  unfold takeOut Parsed.fixed
  rw [if_neg (by omega)]
  by_cases hl : d.rest.length < n.toNat
  · rw [if_pos hl, if_pos (by omega)]
    exact ⟨_, rfl⟩
  · rw [if_neg hl, if_neg (by omega)]
    exact ⟨by omega, by rw [h]; rfl⟩

theorem takeBytes_negative {n : Int} (h1 : n < 0) (h2 : -(2 ^ 63) ≤ n) (d : Decoder) (hd : d.Valid) :
    Dec.takeBytes n d = .panic := by
  rw [takeBytes_spec h2 d hd]
  unfold takeOut
  rw [if_pos h1]
  rfl

theorem Parses.con {α β : Type} {m : Dec α} {w : Nat} {f : List Byte → α} (h : Parses m (Parsed.fixed w f) id) (c : α → β)
    (g : β → α) (hg : ∀ a, g (c a) = a) : Parses m (Parsed.fixed w fun bs => c (f bs)) g := fun d hd => by
  have h1 := h d hd
  unfold Parsed.fixed at h1 ⊢
  by_cases hl : d.rest.length < w
  · rw [if_pos hl] at h1 ⊢; exact h1
  · rw [if_neg hl] at h1 ⊢
    exact ⟨h1.1, by rw [h1.2, hg]; rfl⟩

theorem Parses.loop {α β : Type} {m : Dec α} {p : List Byte → Parsed β} {g : β → α} (h : Parses m p g) (n : Nat) :
    Parses (Dec.loop m n) (times p n) (List.map g) := by
  induction n with
  | zero => exact .pure _ _ _ rfl
  | succ n ih => exact h.bind fun x => ih.map fun xs => rfl

section
variable {v : Int16}

theorem par_bool : Parses Dec.bool (bool.parse v) Val.toBool := by
  rw [Ty.parse]; exact parses_bool.con Val.bool _ fun _ => rfl
theorem par_int8 : Parses Dec.int8 (int8.parse v) Val.toInt8 := by
  rw [Ty.parse]; exact parses_int8.con Val.int8 _ fun _ => rfl
theorem par_int16 : Parses Dec.int16 (int16.parse v) Val.toInt16 := by
  rw [Ty.parse]; exact parses_int16.con Val.int16 _ fun _ => rfl
theorem par_int32 : Parses Dec.int32 (int32.parse v) Val.toInt32 := by
  rw [Ty.parse]; exact parses_int32.con Val.int32 _ fun _ => rfl
theorem par_int64 : Parses Dec.int64 (int64.parse v) Val.toInt64 := by
  rw [Ty.parse]; exact parses_int64.con Val.int64 _ fun _ => rfl

theorem par_string : Parses Dec.string (string.parse v) Val.toStr := by
  rw [Ty.parse]
  refine parses_int16.bind fun n => ?_
  have hn := int16_bounds n
  have e : n = -1 ↔ n.toInt = -1 := ⟨fun h => by rw [h]; rfl, fun h => Int16.toInt_inj.1 (by rw [h]; rfl)⟩
  refine .ite e (fun _ => .pure _ _ _ rfl) fun h => ?_
  by_cases h0 : n.toInt < 0
  · simp only [if_pos h0]
    exact fun d hd => takeBytes_negative h0 (by omega) d hd
  · simp only [if_neg h0]
    exact parses_takeBytes (n := n.toInt) (by omega) (by omega) _ _ fun _ => rfl

theorem par_bytes : Parses Dec.bytes (bytes.parse v) Val.toBytes := by
  rw [Ty.parse]
  refine parses_int32.bind fun n => ?_
  have hn := int32_bounds n
  by_cases h0 : n.toInt < 0
  · simp only [if_pos h0]
    exact fun d hd => bind_panic (takeBytes_negative h0 (by omega) d hd)
  · simp only [if_neg h0]
    intro d hd
    have h1 := parses_takeBytes (n := n.toInt) (by omega) (by omega) id id (fun _ => rfl) d hd
    simp only [Parsed.fixed] at h1 ⊢
    by_cases hl : d.rest.length < n.toInt.toNat
    · rw [if_pos hl] at h1 ⊢
      obtain ⟨d', h'⟩ := h1
      exact ⟨d', bind_err h'⟩
    · rw [if_neg hl] at h1 ⊢
      exact ⟨h1.1, bind_ok h1.2⟩

theorem par_arrayOf {α : Type} {t : Ty} {m : Dec α} {g : Val → α} (ht : t.isStruct = false)
    (h : Parses m (t.parse v) g) : Parses (Dec.arrayOf m) ((array t).parse v) (Val.toSlice g) := by
  rw [Ty.parse]
  have hl : Parses Dec.arrayLength parse32 Int32.toInt := fun d hd => by
    have h1 := parses_int32 d hd
    cases hp : parse32 d.rest with
    | ok x n => rw [hp] at h1; exact ⟨h1.1, bind_ok h1.2⟩
    | short => rw [hp] at h1; obtain ⟨d', h'⟩ := h1; exact ⟨d', bind_err h'⟩
    | bad => rw [hp] at h1; exact bind_panic h1
  refine hl.bind fun n => ?_
  refine .ite (by simp [ht]) (fun _ => .pure _ _ _ rfl) fun h1 => ?_
  refine .ite Iff.rfl (fun _ _ _ => rfl) fun h2 => ?_
  exact (h.loop _).map fun xs => rfl

theorem par_int32Array : Parses Dec.int32Array ((array int32).parse v) (Val.toSlice Val.toInt32) :=
  par_arrayOf rfl par_int32
theorem par_int64Array : Parses Dec.int64Array ((array int64).parse v) (Val.toSlice Val.toInt64) :=
  par_arrayOf rfl par_int64
theorem par_stringArray : Parses Dec.stringArray ((array string).parse v) (Val.toSlice Val.toStr) :=
  par_arrayOf rfl par_string

theorem par_structs {α : Type} {fs : Fields} {m : Dec α} {g : Val → α} (h : Parses m ((struct fs).parse v) g)
    (old : Slice α) : Parses (Dec.structs m old) ((array (struct fs)).parse v) (Val.toSliceOr g old) := by
  rw [Ty.parse]
  have hl : Parses Dec.arrayLength parse32 Int32.toInt := fun d hd => by
    have h1 := parses_int32 d hd
    cases hp : parse32 d.rest with
    | ok x n => rw [hp] at h1; exact ⟨h1.1, bind_ok h1.2⟩
    | short => rw [hp] at h1; obtain ⟨d', h'⟩ := h1; exact ⟨d', bind_err h'⟩
    | bad => rw [hp] at h1; exact bind_panic h1
  refine hl.bind fun n => ?_
  have hs : (struct fs).isStruct = true := rfl
  by_cases h0 : n.toInt < 0
  · rw [if_neg (by omega)]
    simp only [hs, h0, true_and, or_true, if_true]
    exact .pure _ _ _ rfl
  · rw [if_pos (by omega)]
    simp only [h0, false_and, or_false, if_false, show ¬ n.toInt = -1 by omega]
    exact (h.loop _).map fun xs => rfl

end

/-! ### Structures -/

theorem Dec.andThen_assoc {τ : Type} (a b c : τ → Dec τ) : (a ;> b) ;> c = a ;> (b ;> c) := by
  funext t d
  show Dec.bind (Dec.bind (a t) b) c d = Dec.bind (a t) (fun x => Dec.bind (b x) c) d
  unfold Dec.bind
  cases a t d <;> rfl

theorem Dec.andThen_nop {τ : Type} (a : τ → Dec τ) : a ;> Dec.nop = a := by
  funext t d
  show Dec.bind (a t) Dec.pure d = a t d
  unfold Dec.bind
  cases a t d <;> rfl

/-- The statements `s` do with any bytes what the fields say.  `u` is given the values of the fields by name. -/
def FParses {τ : Type} (v : Int16) (s : τ → Dec τ) (fs : Fields) (u : (String → Val) → τ → τ) : Prop :=
  ∀ t d, d.Valid → match fs.parse v d.rest with
    | .ok l n => n ≤ d.rest.length ∧ ∀ g : String → Val, (∀ p ∈ l, g p.1 = p.2) → s t d = .ok (u g t) (d.skip n)
    | .short => ∃ d', s t d = .err .shortBuffer d'
    | .bad => s t d = .panic

section
variable {τ : Type} {v : Int16} {n : String} {s w : Int16} {nf : Option Int16} {t : Ty} {rest : Fields}
  {f f' : τ → Dec τ} {u : (String → Val) → τ → τ}

theorem FParses.done : FParses v (Dec.nop : τ → Dec τ) .done (fun _ t => t) := fun t d _ => by
  rw [Fields.parse]
  exact ⟨Nat.zero_le _, fun g _ => by rw [Decoder.skip_zero]; rfl⟩

/-- a field that is there -/
theorem FParses.present {up : Option Int16} (hp : Present v s up) {k : Val → τ → τ}
    (h : ∀ t0, Parses (f t0) (t.parse v) (fun x => k x t0)) (hr : FParses v f' rest u) :
    FParses v (f ;> f') (.cons n s up nf t rest) (fun g t => u g (k (g n) t)) := fun t0 d hd => by
  rw [Fields.parse]
  simp only [if_pos hp]
  have h1 := h t0 d hd
  cases hq : t.parse v d.rest with
  | ok x j =>
    rw [hq] at h1
    obtain ⟨h2, h3⟩ := h1
    have h4 := hr (k x t0) _ (Decoder.skip_valid hd h2)
    rw [Decoder.skip_rest hd] at h4
    have e : (f ;> f') t0 d = f' (k x t0) (d.skip j) := bind_ok h3
    simp only [next]
    cases hq' : rest.parse v (d.rest.drop j) with
    | ok l i =>
      rw [hq'] at h4
      obtain ⟨h5, h6⟩ := h4
      simp only [value, Nat.add_zero]
      refine ⟨by rw [List.length_drop] at h5; omega, fun g hg => ?_⟩
      rw [e, hg (n, x) (by simp), h6 g fun p hp => hg p (by simp [hp]), Decoder.skip_skip]
    | short =>
      rw [hq'] at h4
      rw [e]; exact h4
    | bad =>
      rw [hq'] at h4
      rw [e]; exact h4
  | short =>
    rw [hq] at h1
    obtain ⟨d', h'⟩ := h1
    exact ⟨d', bind_err h'⟩
  | bad =>
    rw [hq] at h1
    exact bind_panic h1

/-- a field of the protocol that the version does not have -/
theorem FParses.missing {up : Option Int16} (hp : ¬ Present v s up) (hr : FParses v f' rest u) :
    FParses v f' (.cons n s up nf t rest) u := fun t0 d hd => by
  rw [Fields.parse]
  simp only [if_neg hp]
  exact hr t0 d hd

/-- a field of the client that the version does not have -/
theorem FParses.extra {fs : Fields} {c : Prop} [Decidable c] (hc : ¬ c) (hr : FParses v f' fs u) :
    FParses v (Dec.onlyIf c f ;> f') fs u := fun t0 d hd => by
  have e : (Dec.onlyIf c f ;> f') t0 d = f' t0 d := by
    show Dec.bind _ _ _ = _
    simp only [Dec.onlyIf, if_neg hc]
    rfl
  rw [e]
  exact hr t0 d hd

theorem FParses.ext {fs : Fields} {u' : (String → Val) → τ → τ} (h : FParses v f fs u) (e : ∀ g t, u g t = u' g t) :
    FParses v f fs u' := by
  have : u = u' := by funext g t; exact e g t
  rwa [← this]

theorem FParses.optional {up : Option Int16} {c : Prop} [Decidable c] (hc : c ↔ Present v s up) {k : Val → τ → τ}
    {k' : Val → τ → τ} (h : ∀ t0, Parses (f t0) (t.parse v) (fun x => k x t0))
    (hk : ∀ x t, k' x t = if c then k x t else t) (hr : FParses v f' rest u) :
    FParses v (Dec.onlyIf c f ;> f') (.cons n s up nf t rest) (fun g t => u g (k' (g n) t)) := by
  by_cases h0 : c
  · have e : Dec.onlyIf c f = f := by funext t; simp [Dec.onlyIf, h0]
    rw [e]
    exact (FParses.present (hc.1 h0) h hr).ext fun g t => by rw [hk, if_pos h0]
  · exact (FParses.missing (fun h => h0 (hc.2 h)) (FParses.extra h0 hr)).ext fun g t => by rw [hk, if_neg h0]

/-! the statement forms -/

section
variable {α : Type} {m : Dec α} {fs : Fields} {c : Prop} [Decidable c]

theorem parses_field {set : τ → α → τ} {to : Val → α} {p : List Byte → Parsed Val} (h : Parses m p to) (t0 : τ) :
    Parses (Dec.field m set t0) p (fun x => set t0 (to x)) := fun d hd => by
  have h1 := h d hd
  cases hq : p d.rest with
  | ok x j => rw [hq] at h1; exact ⟨h1.1, bind_ok h1.2⟩
  | short => rw [hq] at h1; obtain ⟨d', h'⟩ := h1; exact ⟨d', bind_err h'⟩
  | bad => rw [hq] at h1; exact bind_panic h1

theorem parses_fieldStructs {get : τ → Slice α} {set : τ → Slice α → τ} {to : Val → α}
    (h : Parses m ((struct fs).parse v) to) (t0 : τ) :
    Parses (Dec.fieldStructs m get set t0) ((array (struct fs)).parse v) (fun x => set t0 (x.toSliceOr to (get t0))) :=
  parses_field (par_structs h (get t0)) t0

theorem FParses.field (hv : 0 ≤ v) {set : τ → α → τ} {to : Val → α} (h : Parses m (t.parse v) to)
    (hr : FParses v f' rest u) :
    FParses v (Dec.field m set ;> f') (.cons n 0 none nf t rest) (fun g t => u g (set t (to (g n)))) :=
  FParses.present (k := fun x t => set t (to x)) (show Present v 0 none from hv) (parses_field h) hr

theorem FParses.structs (hv : 0 ≤ v) {get : τ → Slice α} {set : τ → Slice α → τ} {to : Val → α}
    (h : Parses m ((struct fs).parse v) to) (hr : FParses v f' rest u) :
    FParses v (Dec.fieldStructs m get set ;> f') (.cons n 0 none nf (array (struct fs)) rest)
      (fun g t => u g (set t ((g n).toSliceOr to (get t)))) :=
  FParses.present (k := fun x t => set t (x.toSliceOr to (get t))) (show Present v 0 none from hv)
    (parses_fieldStructs h) hr

theorem FParses.optField {up : Option Int16} (hc : c ↔ Present v s up) {set : τ → α → τ} {to : Val → α} (get : τ → α)
    (hget : ∀ t, set t (get t) = t) (h : Parses m (t.parse v) to) (hr : FParses v f' rest u) :
    FParses v (Dec.onlyIf c (Dec.field m set) ;> f') (.cons n s up nf t rest)
      (fun g t => u g (set t (if c then to (g n) else get t))) :=
  FParses.optional (k := fun x t => set t (to x)) (k' := fun x t => set t (if c then to x else get t)) hc
    (parses_field h) (fun x t => by by_cases h : c <;> simp [h, hget]) hr

theorem FParses.optStructs {up : Option Int16} (hc : c ↔ Present v s up) {get : τ → Slice α} {set : τ → Slice α → τ}
    {to : Val → α} (hget : ∀ t, set t (get t) = t) (h : Parses m ((struct fs).parse v) to) (hr : FParses v f' rest u) :
    FParses v (Dec.onlyIf c (Dec.fieldStructs m get set) ;> f') (.cons n s up nf (array (struct fs)) rest)
      (fun g t => u g (set t (if c then (g n).toSliceOr to (get t) else get t))) :=
  FParses.optional (k := fun x t => set t (x.toSliceOr to (get t)))
    (k' := fun x t => set t (if c then x.toSliceOr to (get t) else get t)) hc
    (parses_fieldStructs h) (fun x t => by by_cases h : c <;> simp [h, hget]) hr

end

end

/-! ### The names of the fields are different from each other -/

/-- The names of the fields. -/
def Fields.names : Fields → List String
  | .done => []
  | .cons name _ _ _ _ rest => name :: rest.names

theorem Fields.parse_names (v : Int16) (fs : Fields) : ∀ (bs : List Byte) (l : List (String × Val)) (n : Nat),
    fs.parse v bs = .ok l n → (l.map Prod.fst).Sublist fs.names := by
  induction fs using Fields.names.induct with
  | case1 =>
    intro bs l n h
    rw [Fields.parse] at h
    simp only [value, Parsed.ok.injEq] at h
    rw [← h.1]
    exact .slnil
  | case2 name s up nf t rest ih =>
    intro bs l n h
    rw [Fields.parse] at h
    simp only at h
    rw [Fields.names]
    split at h
    · cases hq : t.parse v bs with
      | ok x j =>
        simp only [hq, next] at h
        cases hq' : rest.parse v (bs.drop j) with
        | ok l' i =>
          simp only [hq', value, Parsed.ok.injEq] at h
          rw [← h.1]
          exact (ih _ _ _ hq').cons_cons _
        | short => simp [hq'] at h
        | bad => simp [hq'] at h
      | short => simp [hq, next] at h
      | bad => simp [hq, next] at h
    · exact (ih _ _ _ h).cons _

theorem lookup_nodup {l : List (String × Val)} (h : (l.map Prod.fst).Nodup) {p : String × Val} (hp : p ∈ l) :
    l.lookup p.1 = some p.2 := by
  induction l with
  | nil => simp at hp
  | cons q l ih =>
    rw [List.map_cons, List.nodup_cons] at h
    rw [List.lookup_cons]
    by_cases e : p.1 = q.1
    · rcases List.mem_cons.1 hp with rfl | hp
      · simp
      · exact absurd (e ▸ List.mem_map_of_mem hp) h.1
    · rcases List.mem_cons.1 hp with rfl | hp
      · exact absurd rfl e
      · have : (p.1 == q.1) = false := by simpa using e
        rw [this]
        exact ih h.2 hp

theorem FParses.parses {τ : Type} {v : Int16} {f f' : τ → Dec τ} {fs : Fields} {u : (String → Val) → τ → τ}
    {o : Val → τ → τ} (h : FParses v f fs u) (hf : f = f') (hn : fs.names.Nodup)
    (ho : ∀ x t, u (fun n => x.get n) t = o x t) (t0 : τ) :
    Parses (f' t0) ((struct fs).parse v) (fun x => o x t0) := by
  subst hf
  intro d hd
  rw [Ty.parse]
  have h1 := h t0 d hd
  cases hq : fs.parse v d.rest with
  | ok l n =>
    rw [hq] at h1
    simp only [hq, next, value, Nat.add_zero]
    refine ⟨h1.1, ?_⟩
    show _ = Res.ok (o (.struct l) t0) _
    rw [← ho]
    refine h1.2 _ fun p hp => ?_
    show (l.lookup p.1).getD _ = _
    rw [lookup_nodup ((Fields.parse_names v fs _ _ _ hq).nodup hn) hp]
    rfl
  | short => rw [hq] at h1; simp only [hq, next]; exact h1
  | bad => rw [hq] at h1; simp only [hq, next]; exact h1

/-! ### The values that are read have the type that is read -/

mutual
/-- All fields that are there at version `v`, at any depth, have different names in their structure. -/
def Ty.distinct : Ty → Bool
  | .array t => t.distinct
  | .struct fs => fs.distinct
  | _ => true
def Fields.distinct : Fields → Bool
  | .done => true
  | .cons name _ _ _ t rest => t.distinct && !rest.names.contains name && rest.distinct
end

theorem Fields.distinct_nodup : ∀ (fs : Fields), fs.distinct = true → fs.names.Nodup
  | .done, _ => List.nodup_nil
  | .cons name _ _ _ t rest, h => by
    rw [Fields.distinct, Bool.and_eq_true, Bool.and_eq_true] at h
    rw [Fields.names, List.nodup_cons]
    refine ⟨by simpa using h.1.2, rest.distinct_nodup h.2⟩

theorem times_forall {α : Type} {P : α → Prop} {p : List Byte → Parsed α} (h : ∀ bs x n, p bs = .ok x n → P x) :
    ∀ (k : Nat) (bs : List Byte) (xs : List α) (n : Nat), times p k bs = .ok xs n → ∀ x ∈ xs, P x
  | 0, bs, xs, n, hx => by
    simp only [times, value, Parsed.ok.injEq] at hx
    rw [← hx.1]; simp
  | k + 1, bs, xs, n, hx => by
    rw [times] at hx
    cases hp : p bs with
    | ok x j =>
      simp only [hp, next] at hx
      cases hq : times p k (bs.drop j) with
      | ok ys i =>
        simp only [hq, value, Parsed.ok.injEq] at hx
        rw [← hx.1]
        intro z hz
        rcases List.mem_cons.1 hz with rfl | hz
        · exact h _ _ _ hp
        · exact times_forall h k _ _ _ hq z hz
      | short => simp [hq] at hx
      | bad => simp [hq] at hx
    | short => simp [hp, next] at hx
    | bad => simp [hp, next] at hx

theorem Parsed.next_ok {α β : Type} {p : Parsed α} {bs : List Byte} {q : α → List Byte → Parsed β} {y : β} {n : Nat}
    (h : p.next bs q = .ok y n) : ∃ x j i, p = .ok x j ∧ q x (bs.drop j) = .ok y i ∧ n = j + i := by
  cases p with
  | ok x j =>
    simp only [next] at h
    cases hq : q x (bs.drop j) with
    | ok z i =>
      simp only [hq, Parsed.ok.injEq] at h
      exact ⟨x, j, i, rfl, by rw [← h.1, hq], h.2.symm⟩
    | short => simp [hq] at h
    | bad => simp [hq] at h
  | short => simp [next] at h
  | bad => simp [next] at h

theorem fixed_ok {α : Type} {w : Nat} {f : List Byte → α} {bs : List Byte} {x : α} {n : Nat}
    (h : fixed w f bs = .ok x n) : x = f (bs.take w) ∧ n = w ∧ w ≤ bs.length := by
  unfold Parsed.fixed at h
  split at h
  · simp at h
  · simp only [Parsed.ok.injEq] at h
    exact ⟨h.1.symm, h.2.symm, by omega⟩

theorem Fields.Typed.congr {v : Int16} : ∀ (fs : Fields) {x y : Val},
    (∀ n ∈ fs.names, x.get n = y.get n) → fs.Typed v x → fs.Typed v y
  | .done, _, _, _, _ => by rw [Fields.Typed]; trivial
  | .cons name s up nf t rest, x, y, h, hx => by
    rw [Fields.Typed] at hx ⊢
    refine ⟨fun hp => ?_, Fields.Typed.congr rest (fun n hn => h n (by simp [Fields.names, hn])) hx.2⟩
    rw [← h name (by simp [Fields.names])]
    exact hx.1 hp

mutual
theorem Ty.parse_typed (v : Int16) : ∀ (t : Ty), t.distinct = true → ∀ (bs : List Byte) (x : Val) (n : Nat),
    t.parse v bs = .ok x n → t.Typed v x
  | .bool, _, bs, x, n, h => by rw [Ty.parse] at h; rw [(fixed_ok h).1]; trivial
  | .int8, _, bs, x, n, h => by rw [Ty.parse] at h; rw [(fixed_ok h).1]; trivial
  | .int16, _, bs, x, n, h => by rw [Ty.parse] at h; rw [(fixed_ok h).1]; trivial
  | .int32, _, bs, x, n, h => by rw [Ty.parse] at h; rw [(fixed_ok h).1]; trivial
  | .int64, _, bs, x, n, h => by rw [Ty.parse] at h; rw [(fixed_ok h).1]; trivial
  | .string, _, bs, x, n, h => by
    rw [Ty.parse] at h
    obtain ⟨k, j, i, _, h2, _⟩ := next_ok h
    split at h2
    · simp only [value, Parsed.ok.injEq] at h2; rw [← h2.1]; trivial
    · split at h2
      · simp at h2
      · rw [(fixed_ok h2).1]; trivial
  | .bytes, _, bs, x, n, h => by
    rw [Ty.parse] at h
    obtain ⟨k, j, i, _, h2, _⟩ := next_ok h
    split at h2
    · simp at h2
    · rw [(fixed_ok h2).1]; trivial
  | .array t, hd, bs, x, n, h => by
    rw [Ty.parse] at h
    rw [Ty.distinct] at hd
    obtain ⟨k, j, i, _, h2, _⟩ := next_ok h
    split at h2
    · simp only [value, Parsed.ok.injEq] at h2; rw [← h2.1]; trivial
    · split at h2
      · simp at h2
      · obtain ⟨xs, j', i', h3, h4, _⟩ := next_ok h2
        simp only [value, Parsed.ok.injEq] at h4
        rw [← h4.1, Ty.Typed]
        exact times_forall (fun bs x n h => t.parse_typed v hd bs x n h) _ _ _ _ h3
  | .struct fs, hd, bs, x, n, h => by
    rw [Ty.parse] at h
    rw [Ty.distinct] at hd
    obtain ⟨l, j, i, h1, h2, _⟩ := next_ok h
    simp only [value, Parsed.ok.injEq] at h2
    rw [← h2.1, Ty.Typed]
    exact fs.parse_typed v hd bs l j h1

theorem Fields.parse_typed (v : Int16) : ∀ (fs : Fields), fs.distinct = true → ∀ (bs : List Byte)
    (l : List (String × Val)) (n : Nat), fs.parse v bs = .ok l n → fs.Typed v (.struct l)
  | .done, _, _, _, _, _ => by rw [Fields.Typed]; trivial
  | .cons name s up nf t rest, hd, bs, l, n, h => by
    rw [Fields.distinct, Bool.and_eq_true, Bool.and_eq_true] at hd
    obtain ⟨⟨hd1, hd2⟩, hd3⟩ := hd
    have hd2 : name ∉ rest.names := by simpa using hd2
    rw [Fields.parse] at h
    rw [Fields.Typed]
    split at h
    · rename_i hp
      obtain ⟨x, j, i, h1, h2, _⟩ := next_ok h
      obtain ⟨l', j', i', h3, h4, _⟩ := next_ok h2
      simp only [value, Parsed.ok.injEq] at h4
      rw [← h4.1]
      have hg : (Val.struct ((name, x) :: l')).get name = x := by simp [Val.get]
      refine ⟨fun _ => by rw [hg]; exact t.parse_typed v hd1 _ _ _ h1, ?_⟩
      refine Fields.Typed.congr rest (x := .struct l') (fun n hn => ?_) (rest.parse_typed v hd3 _ _ _ h3)
      have : (n == name) = false := by
        simp only [beq_eq_false_iff_ne]
        rintro rfl
        exact hd2 hn
      simp [Val.get, List.lookup_cons, this]
    · rename_i hp
      exact ⟨fun h' => absurd h' hp, rest.parse_typed v hd3 _ _ _ h⟩
end

/-! ### What the protocol writes is read -/

theorem fixed_append {α : Type} {w : Nat} (f : List Byte → α) {bs : List Byte} (h : bs.length = w) (tail : List Byte) :
    fixed w f (bs ++ tail) = .ok (f bs) w := by
  subst h
  simp [Parsed.fixed]

theorem next_append {α β : Type} {x : α} {n : Nat} {as bs : List Byte} (q : α → List Byte → Parsed β) {y : β} {k : Nat}
    (hn : n = as.length) (m : Nat) (hk : k = n + m) (hq : q x bs = .ok y m) :
    (Parsed.ok x n).next (as ++ bs) q = .ok y k := by
  subst hn hk
  simp [next, hq]

section
variable (tail : List Byte)

theorem read8 (i : Int8) : Int8.ofNat (unsigned (Wire.int8 i)) = i := by
  have h := unsigned_int8 (Wire.int8 i) (by rw [Kafka.wire_int8]; simp)
  rw [Kafka.wire_int8] at h ⊢
  simpa using h.symm
theorem read16 (i : Int16) : Int16.ofNat (unsigned (Wire.int16 i)) = i := by
  have e : (Wire.int16 i).length = 2 := rfl
  have h := unsigned_int16 (Wire.int16 i) (by omega)
  have h2 := beUint16_be16 i.toBitVec []
  rw [List.append_nil, ← Kafka.wire_int16] at h2
  rw [List.take_of_length_le (by omega), h2] at h
  simpa using h.symm
theorem read32 (i : Int32) : Int32.ofNat (unsigned (Wire.int32 i)) = i := by
  have e : (Wire.int32 i).length = 4 := rfl
  have h := unsigned_int32 (Wire.int32 i) (by omega)
  have h2 := beUint32_be32 i.toBitVec []
  rw [List.append_nil, ← Kafka.wire_int32] at h2
  rw [List.take_of_length_le (by omega), h2] at h
  simpa using h.symm
theorem read64 (i : Int64) : Int64.ofNat (unsigned (Wire.int64 i)) = i := by
  have e : (Wire.int64 i).length = 8 := rfl
  have h := unsigned_int64 (Wire.int64 i) (by omega)
  have h2 := beUint64_be64 i.toBitVec []
  rw [List.append_nil, ← Kafka.wire_int64] at h2
  rw [List.take_of_length_le (by omega), h2] at h
  simpa using h.symm

theorem parse16_wire (i : Int16) : parse16 (Wire.int16 i ++ tail) = .ok i 2 := by
  rw [parse16, fixed_append _ (by rfl), read16]
theorem parse32_wire (i : Int32) : parse32 (Wire.int32 i ++ tail) = .ok i 4 := by
  rw [parse32, fixed_append _ (by rfl), read32]

end

/-- `p` reads every value that is written by `w`, up to what is not written. -/
def Rereads (p : List Byte → Parsed Val) (w : Val → List Byte) (x : Val) : Prop :=
  ∀ tail, ∃ y, p (w x ++ tail) = .ok y (w x).length ∧ w y = w x

theorem Rereads.exact {p : List Byte → Parsed Val} {w : Val → List Byte} {x : Val}
    (h : ∀ tail, p (w x ++ tail) = .ok x (w x).length) : Rereads p w x := fun tail => ⟨x, h tail, rfl⟩

theorem times_append {p : List Byte → Parsed Val} {w : Val → List Byte} : ∀ (l : List Val), (∀ x ∈ l, Rereads p w x) →
    ∀ tail, ∃ ys, times p l.length (l.flatMap w ++ tail) = .ok ys (l.flatMap w).length ∧
      ys.length = l.length ∧ ys.flatMap w = l.flatMap w
  | [], _, tail => ⟨[], by simp [times, value], rfl, rfl⟩
  | x :: l, h, tail => by
    obtain ⟨y, h1, h2⟩ := h x (by simp) (l.flatMap w ++ tail)
    obtain ⟨ys, h3, h4, h5⟩ := times_append l (fun z hz => h z (by simp [hz])) tail
    refine ⟨y :: ys, ?_, by simp [h4], by simp [h2, h5]⟩
    rw [List.flatMap_cons, List.length_cons, times, List.append_assoc, h1]
    refine next_append _ rfl (l.flatMap w).length (by simp) ?_
    simp only [h3, next, value, Nat.add_zero]

theorem Fields.wire_congr {v : Int16} : ∀ (fs : Fields) {x y : Val},
    (∀ n ∈ fs.names, x.get n = y.get n) → fs.wire false v x = fs.wire false v y
  | .done, _, _, _ => by rw [Fields.wire, Fields.wire]
  | .cons name s up nf t rest, x, y, h => by
    rw [Fields.wire, Fields.wire, h name (by simp [Fields.names]),
      Fields.wire_congr rest fun n hn => h n (by simp [Fields.names, hn])]

mutual
theorem Ty.parse_wire (v : Int16) : ∀ (t : Ty) (null : Bool) (x : Val), t.distinct = true → t.Valid false v null x →
    Rereads (t.parse v) (t.wire false v) x
  | .bool, _, x, _, h => by
    cases x <;> simp only [Ty.Valid] at h
    rename_i b
    refine .exact fun tail => ?_
    rw [Ty.parse, wire_bool, fixed_append _ (by rfl)]
    cases b <;> rfl
  | .int8, _, x, _, h => by
    cases x <;> simp only [Ty.Valid] at h
    refine .exact fun tail => ?_
    rw [Ty.parse, Protocol.wire_int8, fixed_append _ (by rfl), read8]; rfl
  | .int16, _, x, _, h => by
    cases x <;> simp only [Ty.Valid] at h
    refine .exact fun tail => ?_
    rw [Ty.parse, Protocol.wire_int16, fixed_append _ (by rfl), read16]; rfl
  | .int32, _, x, _, h => by
    cases x <;> simp only [Ty.Valid] at h
    refine .exact fun tail => ?_
    rw [Ty.parse, Protocol.wire_int32, fixed_append _ (by rfl), read32]; rfl
  | .int64, _, x, _, h => by
    cases x <;> simp only [Ty.Valid] at h
    refine .exact fun tail => ?_
    rw [Ty.parse, Protocol.wire_int64, fixed_append _ (by rfl), read64]; rfl
  | .string, _, x, _, h => by
    cases x with
    | str s =>
      refine .exact fun tail => ?_
      cases s with
      | none =>
        rw [Ty.parse]
        have e : string.wire false v (.str none) = Wire.int16 (-1) := rfl
        simp only [e, parse16_wire]
        exact next_append _ rfl 0 rfl rfl
      | some s =>
        rw [Ty.Valid] at h
        have hn := ofNat_toInt16 h
        rw [Ty.parse, wire_string, Wire.string]
        simp only [List.append_assoc, parse16_wire]
        refine next_append _ rfl s.length (by simp [Wire.int16, Wire.bigEndian]) ?_
        rw [if_neg (by omega), if_neg (by omega), hn, Int.toNat_natCast, fixed_append _ rfl]
    | _ => simp only [Ty.Valid] at h
  | .bytes, _, x, _, h => by
    cases x with
    | bytes s =>
      refine .exact fun tail => ?_
      cases s with
      | none => simp [Ty.Valid] at h
      | some s =>
        rw [Ty.Valid] at h
        have hn := ofNat_toInt32 h
        have e : bytes.wire false v (.bytes (some s)) = Wire.int32 (Int32.ofNat s.length) ++ s := by
          rw [Ty.wire, ← len32]; rfl
        rw [Ty.parse, e]
        simp only [List.append_assoc, parse32_wire]
        refine next_append _ rfl s.length (by simp [Wire.int32, Wire.bigEndian]) ?_
        rw [if_neg (by omega), hn, Int.toNat_natCast, fixed_append _ rfl]
    | _ => simp only [Ty.Valid] at h
  | .array t, _, x, hd, h => by
    rw [Ty.distinct] at hd
    cases x with
    | arr s =>
      cases s with
      | none =>
        refine .exact fun tail => ?_
        rw [Ty.parse]
        have e : (array t).wire false v (.arr none) = Wire.int32 (-1) := rfl
        simp only [e, parse32_wire]
        exact next_append _ rfl 0 rfl rfl
      | some l =>
        rw [Ty.Valid] at h
        have hn := ofNat_toInt32 h.1
        have e : ∀ l : List Val, (array t).wire false v (.arr (some l)) =
            Wire.int32 (Int32.ofNat l.length) ++ l.flatMap (t.wire false v) := fun l => by
          rw [Ty.wire, ← len32]; rfl
        intro tail
        obtain ⟨ys, h1, h2, h3⟩ := times_append l (fun y hy => t.parse_wire v false y hd (h.2 y hy)) tail
        refine ⟨.arr (some ys), ?_, by rw [e, e, h2, h3]⟩
        rw [Ty.parse, e]
        simp only [List.append_assoc, parse32_wire]
        refine next_append _ rfl (l.flatMap (t.wire false v)).length (by simp [Wire.int32, Wire.bigEndian]) ?_
        rw [if_neg (by omega), if_neg (by omega), hn, Int.toNat_natCast, h1]
        simp [next, value]
    | _ => simp only [Ty.Valid] at h
  | .struct fs, _, x, hd, h => by
    rw [Ty.distinct] at hd
    rw [Ty.Valid] at h
    intro tail
    have e : ∀ x, (struct fs).wire false v x = fs.wire false v x := fun x => by
      rw [Ty.wire]; simp
    obtain ⟨l, h1, h2⟩ := fs.parse_wire v x hd h tail
    refine ⟨.struct l, ?_, by rw [e, e, h2]⟩
    rw [Ty.parse, e]
    simp only [h1, next, value, Nat.add_zero]

theorem Fields.parse_wire (v : Int16) : ∀ (fs : Fields) (x : Val), fs.distinct = true → fs.Valid false v x →
    ∀ tail, ∃ l, fs.parse v (fs.wire false v x ++ tail) = .ok l (fs.wire false v x).length ∧
      fs.wire false v (.struct l) = fs.wire false v x
  | .done, x, _, _, tail => ⟨[], by rw [Fields.parse, Fields.wire]; rfl, by rw [Fields.wire, Fields.wire]⟩
  | .cons name s up nf t rest, x, hd, h, tail => by
    rw [Fields.distinct, Bool.and_eq_true, Bool.and_eq_true] at hd
    obtain ⟨⟨hd1, hd2⟩, hd3⟩ := hd
    have hd2 : name ∉ rest.names := by simpa using hd2
    rw [Fields.Valid] at h
    obtain ⟨l, h1, h2⟩ := rest.parse_wire v x hd3 h.2 tail
    by_cases hp : Present v s up
    · obtain ⟨y, h3, h4⟩ := t.parse_wire v _ _ hd1 (h.1 hp) (rest.wire false v x ++ tail)
      refine ⟨(name, y) :: l, ?_, ?_⟩
      · rw [Fields.parse, Fields.wire]
        simp only [if_pos hp, List.append_assoc, h3]
        refine next_append _ rfl (rest.wire false v x).length (by simp) ?_
        simp only [h1, next, value, Nat.add_zero]
      · rw [Fields.wire, Fields.wire, if_pos hp, if_pos hp, ← h2]
        have hg : (Val.struct ((name, y) :: l)).get name = y := by simp [Val.get]
        rw [hg, h4]
        congr 1
        refine Fields.wire_congr rest fun n hn => ?_
        have : (n == name) = false := by
          simp only [beq_eq_false_iff_ne]
          rintro rfl
          exact hd2 hn
        simp [Val.get, List.lookup_cons, this]
    · refine ⟨l, ?_, ?_⟩
      · rw [Fields.parse, Fields.wire]
        simp only [if_neg hp, List.nil_append, h1]
      · rw [Fields.wire, Fields.wire, if_neg hp, if_neg hp, List.nil_append, List.nil_append, h2]
end

/-! ### Messages without a length that can be bad -/

theorem fixed_ne_bad {α : Type} {w : Nat} {f : List Byte → α} {bs : List Byte} : Parsed.fixed w f bs ≠ .bad := by
  unfold Parsed.fixed; split <;> simp

theorem next_ne_bad {α β : Type} {p : Parsed α} {bs : List Byte} {q : α → List Byte → Parsed β} (hp : p ≠ .bad)
    (hq : ∀ x bs, q x bs ≠ .bad) : p.next bs q ≠ .bad := by
  cases p with
  | ok x n =>
    simp only [next]
    have := hq x (bs.drop n)
    split <;> simp_all
  | short => simp [next]
  | bad => simp at hp

theorem times_ne_bad {α : Type} {p : List Byte → Parsed α} (hp : ∀ bs, p bs ≠ .bad) : ∀ n bs, times p n bs ≠ .bad
  | 0, bs => by simp [times, value]
  | n + 1, bs => next_ne_bad (hp bs) fun x bs => next_ne_bad (times_ne_bad hp n bs) fun xs _ => by simp [value]

mutual
theorem Ty.safe_parse (v : Int16) : ∀ (t : Ty), t.safe v = true → ∀ bs, t.parse v bs ≠ .bad
  | .bool, _, bs => by rw [Ty.parse]; exact fixed_ne_bad
  | .int8, _, bs => by rw [Ty.parse]; exact fixed_ne_bad
  | .int16, _, bs => by rw [Ty.parse]; exact fixed_ne_bad
  | .int32, _, bs => by rw [Ty.parse]; exact fixed_ne_bad
  | .int64, _, bs => by rw [Ty.parse]; exact fixed_ne_bad
  | .string, h, _ => by simp [Ty.safe] at h
  | .bytes, h, _ => by simp [Ty.safe] at h
  | .array t, h, bs => by
    rw [Ty.safe, Bool.and_eq_true] at h
    rw [Ty.parse]
    refine next_ne_bad fixed_ne_bad fun n bs => ?_
    split
    · simp [value]
    · split
      · next h1 h2 => exact absurd (Or.inr ⟨h2, h.1⟩) h1
      · exact next_ne_bad (times_ne_bad (t.safe_parse v h.2) _ _) fun _ _ => by simp [value]
  | .struct fs, h, bs => by
    rw [Ty.safe] at h
    rw [Ty.parse]
    exact next_ne_bad (fs.safe_parse v h bs) fun _ _ => by simp [value]

theorem Fields.safe_parse (v : Int16) : ∀ (fs : Fields), fs.safe v = true → ∀ bs, fs.parse v bs ≠ .bad
  | .done, _, bs => by rw [Fields.parse]; simp [value]
  | .cons name s up nf t rest, h, bs => by
    rw [Fields.safe, Bool.and_eq_true, Bool.or_eq_true] at h
    rw [Fields.parse]
    dsimp only
    split
    · next hp =>
      have ht : t.safe v = true := by simpa [hp] using h.1
      exact next_ne_bad (t.safe_parse v ht bs) fun _ bs => next_ne_bad (rest.safe_parse v h.2 bs) fun _ _ => by simp [value]
    · exact rest.safe_parse v h.2 bs
end

mutual
/-- A bound for the bytes of the values below. -/
def Ty.weight : Ty → Nat
  | .array t => 4 + t.weight
  | .struct fs => fs.weight
  | _ => 8

def Fields.weight : Fields → Nat
  | .done => 0
  | .cons _ _ _ _ t rest => t.weight + rest.weight
end

mutual
/-- There is a value of every type. -/
theorem Ty.parse_some (v : Int16) : ∀ (t : Ty), ∃ x bs, bs.length ≤ t.weight ∧
    ∀ tail, t.parse v (bs ++ tail) = .ok x bs.length
  | .bool => ⟨_, [0], by simp [Ty.weight], fun _ => by rw [Ty.parse]; exact fixed_append _ (by rfl) _⟩
  | .int8 => ⟨_, [0], by simp [Ty.weight], fun _ => by rw [Ty.parse]; exact fixed_append _ (by rfl) _⟩
  | .int16 => ⟨_, [0, 0], by simp [Ty.weight], fun _ => by rw [Ty.parse]; exact fixed_append _ (by rfl) _⟩
  | .int32 => ⟨_, [0, 0, 0, 0], by simp [Ty.weight], fun _ => by rw [Ty.parse]; exact fixed_append _ (by rfl) _⟩
  | .int64 => ⟨_, [0, 0, 0, 0, 0, 0, 0, 0], by simp [Ty.weight], fun _ => by rw [Ty.parse]; exact fixed_append _ (by rfl) _⟩
  | .string => ⟨.str (some []), Wire.int16 0, by simp [Ty.weight, Wire.int16, Wire.bigEndian], fun tail => by
      rw [Ty.parse]; simp only [parse16_wire]; exact next_append _ rfl 0 rfl (by simp [Parsed.fixed])⟩
  | .bytes => ⟨.bytes (some []), Wire.int32 0, by simp [Ty.weight, Wire.int32, Wire.bigEndian], fun tail => by
      rw [Ty.parse]; simp only [parse32_wire]; exact next_append _ rfl 0 rfl (by simp [Parsed.fixed])⟩
  | .array t => ⟨.arr (some []), Wire.int32 0, by simp [Ty.weight, Wire.int32, Wire.bigEndian], fun tail => by
      rw [Ty.parse]; simp only [parse32_wire]; exact next_append _ rfl 0 rfl (by simp [times, value, next])⟩
  | .struct fs => by
    obtain ⟨l, bs, hw, h⟩ := fs.parse_some v
    refine ⟨.struct l, bs, by simpa [Ty.weight] using hw, fun tail => ?_⟩
    rw [Ty.parse]
    simp only [h, next, value, Nat.add_zero]

theorem Fields.parse_some (v : Int16) : ∀ (fs : Fields), ∃ l bs, bs.length ≤ fs.weight ∧
    ∀ tail, fs.parse v (bs ++ tail) = .ok l bs.length
  | .done => ⟨[], [], by simp, fun _ => by rw [Fields.parse]; rfl⟩
  | .cons name s up nf t rest => by
    obtain ⟨l, bs, hw, h⟩ := rest.parse_some v
    by_cases hp : Present v s up
    · obtain ⟨x, as, hw', h'⟩ := t.parse_some v
      refine ⟨(name, x) :: l, as ++ bs, by simp [Fields.weight]; omega, fun tail => ?_⟩
      rw [Fields.parse]
      simp only [if_pos hp, List.append_assoc, h']
      refine next_append _ rfl bs.length (by simp) ?_
      simp only [h, next, value, Nat.add_zero]
    · refine ⟨l, bs, by simp [Fields.weight]; omega, fun tail => ?_⟩
      rw [Fields.parse]
      simp only [if_neg hp, h]
end

theorem next_bad {α β : Type} {x : α} {n : Nat} {as bs : List Byte} (q : α → List Byte → Parsed β)
    (hn : n = as.length) (hq : q x bs = .bad) : (Parsed.ok x n).next (as ++ bs) q = .bad := by
  subst hn
  simp [next, hq]

mutual
/-- Where there is a length that can be bad, there are bytes in which it is. -/
theorem Ty.unsafe_parse (v : Int16) : ∀ (t : Ty), t.safe v = false → ∃ bs, bs.length ≤ t.weight ∧
    ∀ tail, t.parse v (bs ++ tail) = .bad
  | .bool, h => by simp [Ty.safe] at h
  | .int8, h => by simp [Ty.safe] at h
  | .int16, h => by simp [Ty.safe] at h
  | .int32, h => by simp [Ty.safe] at h
  | .int64, h => by simp [Ty.safe] at h
  | .string, _ => ⟨Wire.int16 (-2), by simp [Ty.weight, Wire.int16, Wire.bigEndian], fun tail => by
      rw [Ty.parse]; simp only [parse16_wire]; exact next_bad _ rfl (by rw [if_neg (by decide), if_pos (by decide)])⟩
  | .bytes, _ => ⟨Wire.int32 (-2), by simp [Ty.weight, Wire.int32, Wire.bigEndian], fun tail => by
      rw [Ty.parse]; simp only [parse32_wire]; exact next_bad _ rfl (by rw [if_pos (by decide)])⟩
  | .array t, h => by
    rw [Ty.safe] at h
    cases hs : t.isStruct with
    | false =>
      refine ⟨Wire.int32 (-2), by simp [Ty.weight, Wire.int32, Wire.bigEndian], fun tail => ?_⟩
      rw [Ty.parse]
      simp only [parse32_wire]
      exact next_bad _ rfl (by rw [if_neg (by simp [hs]), if_pos (by decide)])
    | true =>
      rw [hs, Bool.true_and] at h
      obtain ⟨bs, hw, hb⟩ := t.unsafe_parse v h
      refine ⟨Wire.int32 1 ++ bs, by simpa [Ty.weight, Wire.int32, Wire.bigEndian, Nat.add_comm] using hw, fun tail => ?_⟩
      rw [Ty.parse, List.append_assoc]
      simp only [parse32_wire]
      refine next_bad _ rfl ?_
      rw [if_neg (by rw [hs]; decide), if_neg (by decide)]
      show (times _ 1 _).next _ _ = _
      simp only [times, hb, next]
  | .struct fs, h => by
    rw [Ty.safe] at h
    obtain ⟨bs, hw, hb⟩ := fs.unsafe_parse v h
    refine ⟨bs, by simpa [Ty.weight] using hw, fun tail => ?_⟩
    rw [Ty.parse]
    simp only [hb, next]

theorem Fields.unsafe_parse (v : Int16) : ∀ (fs : Fields), fs.safe v = false →
    ∃ bs, bs.length ≤ fs.weight ∧ ∀ tail, fs.parse v (bs ++ tail) = .bad
  | .done, h => by simp [Fields.safe] at h
  | .cons name s up nf t rest, h => by
    rw [Fields.safe] at h
    by_cases hp : Present v s up
    · cases ht : t.safe v with
      | false =>
        obtain ⟨bs, hw, hb⟩ := t.unsafe_parse v ht
        refine ⟨bs, by simp [Fields.weight]; omega, fun tail => ?_⟩
        rw [Fields.parse]
        simp only [if_pos hp, hb, next]
      | true =>
        have hr : rest.safe v = false := by simpa [ht] using h
        obtain ⟨x, as, hw', h'⟩ := t.parse_some v
        obtain ⟨bs, hw, hb⟩ := rest.unsafe_parse v hr
        refine ⟨as ++ bs, by simp [Fields.weight]; omega, fun tail => ?_⟩
        rw [Fields.parse]
        simp only [if_pos hp, List.append_assoc, h']
        refine next_bad _ rfl ?_
        simp only [hb, next]
    · have hr : rest.safe v = false := by simpa [hp] using h
      obtain ⟨bs, hw, hb⟩ := rest.unsafe_parse v hr
      refine ⟨bs, by simp [Fields.weight]; omega, fun tail => ?_⟩
      rw [Fields.parse]
      simp only [if_neg hp, hb]
end

end Kafka.Protocol
