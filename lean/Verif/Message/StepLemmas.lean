import Verif.Message.Layout
import Verif.Message.EncLemmas
import Verif.Message.DecPrims
/-!
Composition lemmas for the statement forms of `Verif.Message.Steps`, and the laws proved
for every generated message type.
-/
namespace Kafka

/-! ### Encode -/

theorem Emits.andThen {f g : Encoder → Encoder} {as bs : List Byte} (hf : Emits f as)
    (hg : Emits g bs) : Emits (f ;; g) (as ++ bs) := hf.comp hg

theorem Emits.onlyIf {c : Prop} [Decidable c] {f : Encoder → Encoder} {as : List Byte}
    (hf : Emits f as) : Emits (Kafka.onlyIf c f) (Wire.when c as) := hf.when

theorem Emits.nop : Emits Kafka.nop [] := Emits.id

/-! ### Size -/

/-- `f` adds the length of `bs` to `sz`. -/
def Grows (f : Int32 → Int32) (bs : List Byte) : Prop := ∀ sz, f sz = sz + Int32.ofNat bs.length

theorem Grows.add {n : Int32} {bs : List Byte} (h : Sized n bs) : Grows (Sizeof.add n) bs :=
  fun sz => by rw [← h]; rfl

theorem Grows.andThen {f g : Int32 → Int32} {as bs : List Byte} (hf : Grows f as)
    (hg : Grows g bs) : Grows (f ;; g) (as ++ bs) := fun sz => by
  show g (f sz) = _
  rw [hg, hf, List.length_append, Int32.ofNat_add, Int32.add_assoc]

theorem Grows.onlyIf {c : Prop} [Decidable c] {f : Int32 → Int32} {as : List Byte}
    (hf : Grows f as) : Grows (Kafka.onlyIf c f) (Wire.when c as) := fun sz => by
  unfold Kafka.onlyIf Wire.when
  by_cases h : c
  · simp only [h, if_true]; exact hf sz
  · simp [h]

theorem Grows.nop : Grows Kafka.nop [] := fun sz => by simp [Kafka.nop]

theorem Grows.structs {α : Type} {size : α → Int32} {w : α → List Byte}
    (h : ∀ x, Sized (size x) (w x)) (s : Slice α) :
    Grows (Sizeof.structs size s) (Wire.array w s) := fun sz => by
  unfold Sizeof.structs
  have key : ∀ (l : List α) (sz : Int32), l.reverse.foldl (fun sz x => sz + size x) sz =
      sz + Int32.ofNat (l.flatMap w).length := by
    intro l
    induction l with
    | nil => intro sz; simp
    | cons x l ih =>
      intro sz
      rw [List.reverse_cons, List.foldl_append, ih]
      simp only [List.foldl_cons, List.foldl_nil, List.flatMap_cons, List.length_append,
        Int32.ofNat_add]
      rw [h x, Int32.add_assoc, Int32.add_comm (Int32.ofNat (List.flatMap w l).length)]
  rw [key]
  simp only [Wire.array, List.length_append, Int32.ofNat_add, Int32.add_assoc]
  rfl

theorem Grows.sized {f : Int32 → Int32} {bs : List Byte} (h : Grows f bs) : Sized (f 0) bs := by
  have := h 0
  rwa [Int32.zero_add] at this

/-! ### Decode -/

/-- The statement `s` reads `bs` and updates the receiver by `g`. -/
def Step {τ : Type} (s : τ → Dec τ) (bs : List Byte) (g : τ → τ) : Prop :=
  ∀ t, Reads (s t) bs (g t)

theorem Step.nop {τ : Type} : Step (Dec.nop : τ → Dec τ) [] (fun t => t) := fun _ => Reads.pure _

theorem Step.andThen {τ : Type} {s s' : τ → Dec τ} {as bs : List Byte} {g g' : τ → τ}
    (h : Step s as g) (h' : Step s' bs g') :
    Step (s ;> s') (as ++ bs) (fun t => g' (g t)) := fun t => (h t).bind (h' (g t))

theorem Step.field {τ α : Type} {m : Dec α} {set : τ → α → τ} {bs : List Byte} {a : α}
    (h : Reads m bs a) : Step (Dec.field m set) bs (fun t => set t a) := fun _ => Reads.map h

theorem Step.optField {τ α : Type} {c : Prop} [Decidable c] {m : Dec α} {set : τ → α → τ}
    {bs : List Byte} {a : α} (get : τ → α) (hget : ∀ t, set t (get t) = t)
    (h : c → Reads m bs a) :
    Step (Dec.onlyIf c (Dec.field m set)) (Wire.when c bs)
      (fun t => set t (if c then a else get t)) := fun t => by
  unfold Dec.onlyIf Wire.when
  by_cases hc : c
  · simp only [hc, if_true]; exact Reads.map (h hc)
  · simp only [hc, if_false, hget]; exact Reads.pure _

theorem Step.structs {τ α : Type} {f : Dec α} {w : α → List Byte} {g : α → α} {p : α → Prop}
    {get : τ → Slice α} {set : τ → Slice α → τ} {s : Slice α}
    (h : ∀ x, p x → Reads f (w x) (g x)) (hs : FitsAll p s) :
    Step (Dec.fieldStructs f get set) (Wire.array w s)
      (fun t => set t (some (s.elems.map g))) := fun _ => Reads.map (reads_structs _ hs h)

theorem Step.optStructs {τ α : Type} {c : Prop} [Decidable c] {f : Dec α} {w : α → List Byte}
    {g : α → α} {p : α → Prop} {get : τ → Slice α} {set : τ → Slice α → τ} {s : Slice α}
    (hget : ∀ t, set t (get t) = t)
    (h : ∀ x, p x → Reads f (w x) (g x)) (hs : c → FitsAll p s) :
    Step (Dec.onlyIf c (Dec.fieldStructs f get set)) (Wire.when c (Wire.array w s))
      (fun t => set t (if c then some (s.elems.map g) else get t)) := fun t => by
  unfold Dec.onlyIf Wire.when
  by_cases hc : c
  · simp only [hc, if_true]; exact Reads.map (reads_structs _ (hs hc) h)
  · simp only [hc, if_false, hget]; exact Reads.pure _

/-- Every run of the statement is determined by the remaining bytes, see `Tame`. -/
def TameStep {τ : Type} (s : τ → Dec τ) : Prop := ∀ t, Tame (s t)

theorem TameStep.nop {τ : Type} : TameStep (Dec.nop : τ → Dec τ) := fun _ => Tame.pure _
theorem TameStep.andThen {τ : Type} {s s' : τ → Dec τ} (h : TameStep s) (h' : TameStep s') :
    TameStep (s ;> s') := fun t => (h t).bind h'
theorem TameStep.field {τ α : Type} {m : Dec α} {set : τ → α → τ} (h : Tame m) :
    TameStep (Dec.field m set) := fun _ => h.bind fun _ => Tame.pure _
theorem TameStep.structs {τ α : Type} {f : Dec α} {get : τ → Slice α} {set : τ → Slice α → τ}
    (h : Tame f) : TameStep (Dec.fieldStructs f get set) :=
  fun _ => (tame_structs h _).bind fun _ => Tame.pure _
theorem TameStep.onlyIf {τ : Type} {c : Prop} [Decidable c] {s : τ → Dec τ} (h : TameStep s) :
    TameStep (Dec.onlyIf c s) := fun t => Tame.ite (h t) (Tame.pure _)

/-- The statement does not panic on input without top bits, see `Calm`. -/
def CalmStep {τ : Type} (s : τ → Dec τ) : Prop := TameStep s ∧ ∀ t, Calm (s t) (fun _ => True)

theorem CalmStep.nop {τ : Type} : CalmStep (Dec.nop : τ → Dec τ) :=
  ⟨.nop, fun _ => Calm.pure trivial⟩
theorem CalmStep.andThen {τ : Type} {s s' : τ → Dec τ} (h : CalmStep s) (h' : CalmStep s') :
    CalmStep (s ;> s') :=
  ⟨h.1.andThen h'.1, fun t => Calm.bind (h.1 t) (h.2 t) fun a _ => h'.2 a⟩
theorem CalmStep.field {τ α : Type} {m : Dec α} {set : τ → α → τ} {P : α → Prop} (ht : Tame m)
    (h : Calm m P) : CalmStep (Dec.field m set) :=
  ⟨.field ht, fun _ => Calm.bind ht h fun _ _ => Calm.pure trivial⟩
theorem CalmStep.structs {τ α : Type} {f : Dec α} {get : τ → Slice α} {set : τ → Slice α → τ}
    (ht : Tame f) (h : Calm f (fun _ => True)) : CalmStep (Dec.fieldStructs f get set) :=
  ⟨.structs ht, fun _ => Calm.bind (tame_structs ht _) (calm_structs ht h _)
    fun _ _ => Calm.pure trivial⟩
theorem CalmStep.onlyIf {τ : Type} {c : Prop} [Decidable c] {s : τ → Dec τ} (h : CalmStep s) :
    CalmStep (Dec.onlyIf c s) :=
  ⟨h.1.onlyIf, fun t => Calm.ite (fun _ => h.2 t) (fun _ => Calm.pure trivial)⟩

/-! ### Canonical values -/

theorem canon_opt {α : Type} {c : Prop} [Decidable c] {a z : α} (h : ¬c → a = z) :
    (if c then a else z) = a := by
  split
  · rfl
  · exact (h ‹_›).symm

theorem canon_nonNil {α : Type} {s : Slice α} (h : s.NotNil) : s.nonNil = s := by
  cases s with
  | none => exact absurd rfl h
  | some l => rfl

theorem canon_optNonNil {α : Type} {c : Prop} [Decidable c] {s z : Slice α} (h1 : c → s.NotNil)
    (h : ¬c → s = z) : (if c then s.nonNil else z) = s := by
  split
  · exact canon_nonNil (h1 ‹_›)
  · exact (h ‹_›).symm

theorem canon_structs {α : Type} {p : α → Prop} {g : α → α} (hg : ∀ x, p x → g x = x)
    {s : Slice α} (h : CanonAll p s) : some (s.elems.map g) = s := by
  cases s with
  | none => exact absurd rfl h.1
  | some l =>
    congr 1
    have : l.map g = l.map id := List.map_congr_left fun x hx => hg x (h.2 x hx)
    simpa [Slice.elems] using this

theorem canon_optStructs {α : Type} {c : Prop} [Decidable c] {p : α → Prop} {g : α → α}
    (hg : ∀ x, p x → g x = x) {s z : Slice α} (h1 : c → CanonAll p s) (h : ¬c → s = z) :
    (if c then some (s.elems.map g) else z) = s := by
  split
  · exact canon_structs hg (h1 ‹_›)
  · exact (h ‹_›).symm

/-! ### The bytes of what was seen -/

theorem app_congr {a a' b b' : List Byte} (h : a = a') (h' : b = b') : a ++ b = a' ++ b' := by
  rw [h, h']

theorem again_opt {α : Type} {c : Prop} [Decidable c] (w : α → List Byte) (a z : α) :
    Wire.when c (w (if c then a else z)) = Wire.when c (w a) := by
  unfold Wire.when; split <;> rfl

theorem again_optNonNil {c : Prop} [Decidable c] (s z : Slice Byte) :
    Wire.when c (Wire.bytes (if c then s.nonNil else z)) = Wire.when c (Wire.bytes s) := by
  unfold Wire.when; split <;> rfl

theorem again_structs {α : Type} {w : α → List Byte} {g : α → α} (hg : ∀ x, w (g x) = w x)
    (s : Slice α) : Wire.array w (some (s.elems.map g)) = Wire.array w s := by
  unfold Wire.array
  have : (s.elems.map g).flatMap w = s.elems.flatMap w := by
    rw [List.flatMap_map]
    exact congrArg (fun f => List.flatMap f s.elems) (funext hg)
  show _ ++ (s.elems.map g).flatMap w = _
  rw [this]
  simp [Slice.len, Slice.elems]

theorem again_optStructs {α : Type} {c : Prop} [Decidable c] {w : α → List Byte} {g : α → α}
    (hg : ∀ x, w (g x) = w x) (s z : Slice α) :
    Wire.when c (Wire.array w (if c then some (s.elems.map g) else z)) =
      Wire.when c (Wire.array w s) := by
  unfold Wire.when
  split
  · exact again_structs hg s
  · rfl

/-- The laws every message type satisfies. -/
structure Lawful (M : MsgType) (L : Layout M) : Prop where
  emits : ∀ v t, Emits (M.encode v t) (L.wire v t)
  sized : ∀ v t, Sized (M.size v t) (L.wire v t)
  reads : ∀ v t, L.Fits v t → ∀ t0, Reads (M.decode v t0) (L.wire v t) (L.seen v t t0)
  tame : ∀ v t0, Tame (M.decode v t0)
  calm : ∀ v t0, Calm (M.decode v t0) (fun _ => True)
  canon : ∀ v t, L.Canon v t → L.seen v t M.zero = t
  again : ∀ v t t0, L.wire v (L.seen v t t0) = L.wire v t

end Kafka
