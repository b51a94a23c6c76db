import Verif.Message.StepLemmas
/-!
Decoding into a message that has been used before.
-/
namespace Kafka

/-- The outcome with the value replaced. -/
def Res.map {α β : Type} (f : α → β) : Res α → Res β
  | .ok a d => .ok (f a) d
  | .err e d => .err e d
  | .panic => .panic

/-- What becomes of a message used before, described by what a fresh one becomes. -/
structure Reuse (M : MsgType) where
  /-- `over v y t0`: where a fresh message becomes `y`, `t0` becomes this -/
  over : Int16 → M.T → M.T → M.T
  /-- an array of structures that version `v` has is nil in `y` -/
  Nulls : Int16 → M.T → Prop

/-- The description is right; it makes no difference to the bytes a message stands for, but for the arrays left out. -/
structure Reuse.Holds {M : MsgType} (R : Reuse M) (L : Layout M) : Prop where
  decode : ∀ v t0 d, M.decode v t0 d = (M.decode v M.zero d).map (R.over v · t0)
  same : ∀ v y t0, ¬R.Nulls v y → L.wire v (R.over v y t0) = L.wire v y
  stale : ∀ v y, R.Nulls v y → ∃ t0, L.wire v (R.over v y t0) ≠ L.wire v y

/-- For fields: `a` if this field has been decoded, `b` before. -/
def upto {α : Type} (k i : Nat) (a b : α) : α := bif Nat.blt i k then a else b

theorem upto_zero {α : Type} (i : Nat) (a b : α) : upto 0 i a b = b := rfl

/-- A statement of `Decode`, in a receiver `o y` and in `y`. -/
def Sim {τ : Type} (o o' : τ → τ) (f : τ → Dec τ) : Prop := ∀ y d, f (o y) d = (f y d).map o'

theorem Sim.andThen {τ : Type} {o o' o'' : τ → τ} {f g : τ → Dec τ} (h : Sim o o' f) (h' : Sim o' o'' g) :
    Sim o o'' (f ;> g) := by
  intro y d
  show Dec.bind (f (o y)) g d = (Dec.bind (f y) g d).map o''
  unfold Dec.bind
  rw [h y d]
  cases hf : f y d with
  | ok a d1 => exact h' a d1
  | err e d1 => rfl
  | panic => rfl

theorem Sim.field {τ α : Type} {o o' : τ → τ} {m : Dec α} {set : τ → α → τ}
    (h : ∀ y x, set (o y) x = o' (set y x)) : Sim o o' (Dec.field m set) := by
  intro y d
  show Dec.bind m (fun x => Dec.pure (set (o y) x)) d = (Dec.bind m (fun x => Dec.pure (set y x)) d).map o'
  unfold Dec.bind
  cases m d with
  | ok a d1 => simp only [Dec.pure, Res.map, h]
  | err e d1 => rfl
  | panic => rfl

theorem structs_cases {α : Type} (dec : Dec α) (d : Decoder) :
    (∃ l d1, ∀ old, Dec.structs dec old d = .ok (some l) d1) ∨ (∃ d1, ∀ old, Dec.structs dec old d = .ok old d1) ∨
      (∃ e d1, ∀ old, Dec.structs dec old d = .err e d1) ∨ ∀ old, Dec.structs dec old d = .panic := by
  cases ha : Dec.arrayLength d with
  | err e d1 => exact .inr (.inr (.inl ⟨e, d1, fun old => bind_err ha⟩))
  | panic => exact .inr (.inr (.inr fun old => bind_panic ha))
  | ok n d1 =>
    have h1 : ∀ old, Dec.structs dec old d = (if n ≥ 0 then (do
        let items ← Dec.loop dec n.toNat
        pure (some items)) else pure old : Dec (Slice α)) d1 := fun old => bind_ok ha
    by_cases hn : n ≥ 0
    · simp only [if_pos hn] at h1
      cases hl : Dec.loop dec n.toNat d1 with
      | ok l d2 => exact .inl ⟨l, d2, fun old => (h1 old).trans (bind_ok hl)⟩
      | err e d2 => exact .inr (.inr (.inl ⟨e, d2, fun old => (h1 old).trans (bind_err hl)⟩))
      | panic => exact .inr (.inr (.inr fun old => (h1 old).trans (bind_panic hl)))
    · simp only [if_neg hn] at h1
      exact .inr (.inl ⟨d1, h1⟩)

theorem Sim.structs {τ α : Type} {o o' : τ → τ} {dec : Dec α} {get : τ → Slice α} {set : τ → Slice α → τ}
    (h : ∀ y l, set (o y) (some l) = o' (set y (some l))) (h' : ∀ y, set (o y) (get (o y)) = o' (set y (get y))) :
    Sim o o' (Dec.fieldStructs dec get set) := by
  intro y d
  show Dec.bind (Dec.structs dec (get (o y))) (fun x => Dec.pure (set (o y) x)) d =
    (Dec.bind (Dec.structs dec (get y)) (fun x => Dec.pure (set y x)) d).map o'
  unfold Dec.bind
  obtain ⟨l, d1, hs⟩ | ⟨d1, hs⟩ | ⟨e, d1, hs⟩ | hs := structs_cases dec d <;> rw [hs, hs]
  · exact congrArg (Res.ok · d1) (h y l)
  · exact congrArg (Res.ok · d1) (h' y)
  · rfl
  · rfl

theorem Sim.onlyIf {τ : Type} {o o' : τ → τ} {c : Prop} [Decidable c] {f : τ → Dec τ} (h : c → Sim o o' f)
    (h' : ¬c → ∀ y, o y = o' y) : Sim o o' (Dec.onlyIf c f) := by
  intro y d
  unfold Dec.onlyIf
  by_cases hc : c
  · rw [if_pos hc, if_pos hc]; exact h hc y d
  · rw [if_neg hc, if_neg hc]; exact congrArg (Res.ok · d) (h' hc y)

theorem Sim.nop {τ : Type} {o o' : τ → τ} (h : ∀ y, o y = o' y) : Sim o o' Dec.nop :=
  fun y d => congrArg (Res.ok · d) (h y)

theorem same_or {α : Type} {w : α → List Byte} {a b : Slice α} (h : a ≠ none) :
    Wire.array w (a.or b) = Wire.array w a := by
  cases a with
  | none => exact absurd rfl h
  | some l => rfl

theorem same_when {α : Type} {c : Prop} [Decidable c] {w : α → List Byte} {a b : Slice α} (h : c → a ≠ none) :
    Wire.when c (Wire.array w (if c then a.or b else b)) = Wire.when c (Wire.array w a) := by
  unfold Wire.when
  split
  · rename_i hc; exact same_or (h hc)
  · rfl

theorem none_or {α : Type} {w : α → List Byte} {a : Slice α} : Wire.array w (a.or none) = Wire.array w a := by
  cases a <;> rfl

theorem none_when {α : Type} {c : Prop} [Decidable c] {w : α → List Byte} {a : Slice α} :
    Wire.when c (Wire.array w (if c then a.or none else none)) = Wire.when c (Wire.array w a) := by
  unfold Wire.when
  split
  · exact none_or
  · rfl

theorem stale_or {α : Type} {w : α → List Byte} {a : Slice α} {x : α} (h : a = none) :
    Wire.array w (a.or (some [x])) ≠ Wire.array w a := by
  subst h
  intro h
  have := congrArg (List.getD · 3 0) h
  simp [Wire.array, Slice.len, Slice.elems, wire_int32, be32] at this

theorem stale_when {α : Type} {c : Prop} [Decidable c] {w : α → List Byte} {a : Slice α} {x : α} (hc : c) (h : a = none) :
    Wire.when c (Wire.array w (if c then a.or (some [x]) else some [x])) ≠ Wire.when c (Wire.array w a) := by
  unfold Wire.when
  rw [if_pos hc, if_pos hc, if_pos hc]
  exact stale_or h

theorem app_ne_left {a a' b b' : List Byte} (h : a ≠ a') (h' : b = b') : a ++ b ≠ a' ++ b' := by
  subst h'; simpa using h

theorem app_ne_right {a a' b b' : List Byte} (h : a = a') (h' : b ≠ b') : a ++ b ≠ a' ++ b' := by
  subst h; simpa using h'

end Kafka
