import Verif.Protocol.ParseLemmas
import Verif.Protocol.Unique
/-!
What the bytes of a message say: two values with the same bytes at a version agree in all fields that are there at it
(in the encoding of the versions that are not flexible).
-/
namespace Kafka.Protocol

open Ty Parsed

mutual
/-- The part of a value that is there at version `v`. -/
def Ty.view (v : Int16) : Ty → Val → Val
  | .array t, .arr (some xs) => .arr (some (xs.map (t.view v)))
  | .struct fs, x => .struct (fs.view v x)
  | _, x => x

/-- The fields that are there, in order. -/
def Fields.view (v : Int16) : Fields → Val → List (String × Val)
  | .done, _ => []
  | .cons name since upto _ t rest, x =>
    if Present v since upto then (name, t.view v (x.get name)) :: rest.view v x else rest.view v x
end

/-- The bytes that `f` gives for a valid value are no proper beginning of others, and say what `g` says. -/
def Tells {β : Type} (p : Val → Prop) (f : Val → List Byte) (g : Val → β) : Prop :=
  ∀ x y r r', p x → p y → f x ++ r = f y ++ r' → g x = g y ∧ r = r'

theorem Tells.fixed {p : Val → Prop} {f : Val → List Byte} (n : Nat)
    (h : ∀ x, p x → (f x).length = n) (hi : ∀ x y, p x → p y → f x = f y → x = y) : Tells p f id := fun x y _ _ hx hy e => by
  obtain ⟨e1, e2⟩ := List.append_inj e (by rw [h x hx, h y hy])
  exact ⟨hi x y hx hy e1, e2⟩

theorem Tells.congr {β : Type} {p : Val → Prop} {f : Val → List Byte} {g g' : Val → β} (h : ∀ x, p x → g' x = g x)
    (ht : Tells p f g) : Tells p f g' := fun x y r r' hx hy e => by
  rw [h x hx, h y hy]
  exact ht x y r r' hx hy e

theorem Tells.items {β : Type} {p : Val → Prop} {f : Val → List Byte} {g : Val → β} (h : Tells p f g) (xs : List Val) :
    ∀ (ys : List Val) (r r' : List Byte), xs.length = ys.length → (∀ x ∈ xs, p x) → (∀ y ∈ ys, p y) →
      xs.flatMap f ++ r = ys.flatMap f ++ r' → xs.map g = ys.map g ∧ r = r' := by
  induction xs with
  | nil =>
    intro ys r r' hl _ _ e
    cases ys with
    | nil => exact ⟨rfl, e⟩
    | cons _ _ => simp at hl
  | cons x xs ih =>
    intro ys r r' hl hx hy e
    cases ys with
    | nil => simp at hl
    | cons y ys =>
      simp only [List.flatMap_cons, List.append_assoc] at e
      obtain ⟨e1, e2⟩ := h x y _ _ (hx x (by simp)) (hy y (by simp)) e
      obtain ⟨e3, e4⟩ := ih ys r r' (by simpa using hl) (fun z hz => hx z (by simp [hz]))
        (fun z hz => hy z (by simp [hz])) e2
      exact ⟨by simp only [List.map_cons, e1, e3], e4⟩

/-- A length of `w` bytes, or -1 for nothing, and that many bytes. -/
def optWire (w : Nat) : Option (List Byte) → List Byte
  | none => Wire.bigEndian w (-1)
  | some s => Wire.bigEndian w s.length ++ s

theorem optWire_inj {w : Nat} {m : Int} (hm : 0 ≤ m) (hinj : ∀ i j, -1 ≤ i → i < m → -1 ≤ j → j < m →
    Wire.bigEndian w i = Wire.bigEndian w j → i = j) (s t : Option (List Byte)) {r r' : List Byte}
    (hs : ∀ l, s = some l → (l.length : Int) < m) (ht : ∀ l, t = some l → (l.length : Int) < m)
    (e : optWire w s ++ r = optWire w t ++ r') : s = t ∧ r = r' := by
  by_cases h0 : m = 0
  · cases s with
    | some l => have := hs l rfl; omega
    | none =>
      cases t with
      | some l => have := ht l rfl; omega
      | none => exact ⟨rfl, List.append_cancel_left e⟩
  cases s with
  | none =>
    cases t with
    | none => exact ⟨rfl, List.append_cancel_left e⟩
    | some l =>
      simp only [optWire, List.append_assoc] at e
      have h1 := hinj _ _ (by omega) (by omega) (by omega) (ht l rfl)
        (List.append_inj e (by simp only [bigEndian_length])).1
      omega
  | some k =>
    cases t with
    | none =>
      simp only [optWire, List.append_assoc] at e
      have h1 := hinj _ _ (by omega) (hs k rfl) (by omega) (by omega)
        (List.append_inj e (by simp only [bigEndian_length])).1
      omega
    | some l =>
      simp only [optWire, List.append_assoc] at e
      obtain ⟨e1, e2⟩ := List.append_inj e (by simp only [bigEndian_length])
      have h1 := hinj _ _ (by omega) (hs k rfl) (by omega) (ht l rfl) e1
      obtain ⟨e3, e4⟩ := List.append_inj e2 (by omega)
      exact ⟨by rw [e3], e4⟩

theorem string_tells (nulls : Bool) (v : Int16) :
    Tells (fun x => ∃ null, string.Valid nulls v null x) (string.wire false v) id := by
  rintro x y r r' ⟨_, hx⟩ ⟨_, hy⟩ e
  cases x with
  | str s =>
    cases y with
    | str t =>
      have w : ∀ s, string.wire false v (.str s) = optWire 2 s := fun s => by cases s <;> rfl
      rw [w, w] at e
      obtain ⟨h1, h2⟩ := optWire_inj (m := 2 ^ 15) (by decide)
        (fun i j a b c d => len16_inj (by omega) b (by omega) d) s t
        (by rintro l rfl; simp only [Ty.Valid] at hx; omega) (by rintro l rfl; simp only [Ty.Valid] at hy; omega) e
      exact ⟨by rw [h1], h2⟩
    | _ => simp only [Ty.Valid] at hy
  | _ => simp only [Ty.Valid] at hx

theorem bytes_tells (nulls : Bool) (v : Int16) :
    Tells (fun x => ∃ null, bytes.Valid nulls v null x) (bytes.wire false v) id := by
  rintro x y r r' ⟨_, hx⟩ ⟨_, hy⟩ e
  cases x with
  | bytes s =>
    cases y with
    | bytes t =>
      have w : ∀ s, bytes.wire false v (.bytes s) = optWire 4 s := fun s => by cases s <;> rfl
      rw [w, w] at e
      obtain ⟨h1, h2⟩ := optWire_inj (m := 2 ^ 31) (by decide)
        (fun i j a b c d => len32_inj (by omega) b (by omega) d) s t
        (by rintro l rfl; simp only [Ty.Valid] at hx; omega) (by rintro l rfl; simp only [Ty.Valid] at hy; omega) e
      exact ⟨by rw [h1], h2⟩
    | _ => simp only [Ty.Valid] at hy
  | _ => simp only [Ty.Valid] at hx

theorem array_tells {t : Ty} (nulls : Bool) (v : Int16)
    (ht : Tells (fun x => ∃ null, t.Valid nulls v null x) (t.wire false v) (t.view v)) :
    Tells (fun x => ∃ null, (array t).Valid nulls v null x) ((array t).wire false v) ((array t).view v) := by
  rintro x y r r' ⟨_, hx⟩ ⟨_, hy⟩ e
  have none_wire : (array t).wire false v (.arr none) = Wire.bigEndian 4 (-1) := rfl
  have some_wire : ∀ l, (array t).wire false v (.arr (some l)) = Wire.bigEndian 4 (l.length : Int) ++ l.flatMap (t.wire false v) :=
    fun _ => rfl
  cases x with
  | arr s =>
    cases y with
    | arr s' =>
      cases s with
      | none =>
        cases s' with
        | none => exact ⟨rfl, List.append_cancel_left e⟩
        | some l =>
          simp only [Ty.Valid] at hy
          rw [none_wire, some_wire, List.append_assoc] at e
          have h1 := len32_inj (by omega) (by omega) (by omega) (by omega)
            (List.append_inj e (by simp only [bigEndian_length])).1
          omega
      | some k =>
        simp only [Ty.Valid] at hx
        cases s' with
        | none =>
          rw [none_wire, some_wire, List.append_assoc] at e
          have h1 := len32_inj (by omega) (by omega) (by omega) (by omega)
            (List.append_inj e (by simp only [bigEndian_length])).1
          omega
        | some l =>
          simp only [Ty.Valid] at hy
          rw [some_wire, some_wire, List.append_assoc, List.append_assoc] at e
          obtain ⟨e1, e2⟩ := List.append_inj e (by simp only [bigEndian_length])
          have h1 := len32_inj (by omega) (by omega) (by omega) (by omega) e1
          obtain ⟨e3, e4⟩ := ht.items k l r r' (by omega) (fun z hz => ⟨_, hx.2 z hz⟩) (fun z hz => ⟨_, hy.2 z hz⟩) e2
          exact ⟨by rw [Ty.view, Ty.view, e3], e4⟩
    | _ => simp only [Ty.Valid] at hy
  | _ => simp only [Ty.Valid] at hx

mutual
theorem Ty.tells (nulls : Bool) (v : Int16) :
    (t : Ty) → Tells (fun x => ∃ null, t.Valid nulls v null x) (t.wire false v) (t.view v)
  | .bool => .congr (fun x ⟨_, h⟩ => by cases x <;> simp only [Ty.Valid] at h; rfl) <|
    .fixed 1 (fun x ⟨_, h⟩ => by cases x <;> simp only [Ty.Valid] at h; rfl) fun x y ⟨_, hx⟩ ⟨_, hy⟩ e => by
      cases x <;> simp only [Ty.Valid] at hx
      cases y <;> simp only [Ty.Valid] at hy
      rename_i b c
      revert e
      cases b <;> cases c <;> simp [Ty.wire]
  | .int8 => .congr (fun x ⟨_, h⟩ => by cases x <;> simp only [Ty.Valid] at h; rfl) <|
    .fixed 1 (fun x ⟨_, h⟩ => by cases x <;> simp only [Ty.Valid] at h; rfl) fun x y ⟨_, hx⟩ ⟨_, hy⟩ e => by
      cases x <;> simp only [Ty.Valid] at hx
      cases y <;> simp only [Ty.Valid] at hy
      rw [Protocol.wire_int8, Protocol.wire_int8] at e
      rename_i j _
      rw [← read8 j, ← e, read8]
  | .int16 => .congr (fun x ⟨_, h⟩ => by cases x <;> simp only [Ty.Valid] at h; rfl) <|
    .fixed 2 (fun x ⟨_, h⟩ => by cases x <;> simp only [Ty.Valid] at h; rfl) fun x y ⟨_, hx⟩ ⟨_, hy⟩ e => by
      cases x <;> simp only [Ty.Valid] at hx
      cases y <;> simp only [Ty.Valid] at hy
      rw [Protocol.wire_int16, Protocol.wire_int16] at e
      rename_i j _
      rw [← read16 j, ← e, read16]
  | .int32 => .congr (fun x ⟨_, h⟩ => by cases x <;> simp only [Ty.Valid] at h; rfl) <|
    .fixed 4 (fun x ⟨_, h⟩ => by cases x <;> simp only [Ty.Valid] at h; rfl) fun x y ⟨_, hx⟩ ⟨_, hy⟩ e => by
      cases x <;> simp only [Ty.Valid] at hx
      cases y <;> simp only [Ty.Valid] at hy
      rw [Protocol.wire_int32, Protocol.wire_int32] at e
      rename_i j _
      rw [← read32 j, ← e, read32]
  | .int64 => .congr (fun x ⟨_, h⟩ => by cases x <;> simp only [Ty.Valid] at h; rfl) <|
    .fixed 8 (fun x ⟨_, h⟩ => by cases x <;> simp only [Ty.Valid] at h; rfl) fun x y ⟨_, hx⟩ ⟨_, hy⟩ e => by
      cases x <;> simp only [Ty.Valid] at hx
      cases y <;> simp only [Ty.Valid] at hy
      rw [Protocol.wire_int64, Protocol.wire_int64] at e
      rename_i j _
      rw [← read64 j, ← e, read64]
  | .string => .congr (fun x _ => by cases x <;> rfl) (string_tells nulls v)
  | .bytes => .congr (fun x _ => by cases x <;> rfl) (bytes_tells nulls v)
  | .array t => array_tells nulls v (Ty.tells nulls v t)
  | .struct fs => by
    rintro x y r r' ⟨_, hx⟩ ⟨_, hy⟩ e
    rw [Ty.Valid] at hx hy
    simp only [Ty.wire, Bool.false_eq_true, if_false, List.append_nil] at e
    obtain ⟨h1, h2⟩ := Fields.tells nulls v fs x y r r' hx hy e
    exact ⟨by rw [Ty.view, Ty.view, h1], h2⟩

/-- At a version, the bytes of a structure say what is in the fields that are there. -/
theorem Fields.tells (nulls : Bool) (v : Int16) :
    (fs : Fields) → Tells (fs.Valid nulls v) (fs.wire false v) (fs.view v)
  | .done => by
    intro x y r r' _ _ e
    simp only [Fields.wire, List.nil_append] at e
    exact ⟨rfl, e⟩
  | .cons n s u nf t rest => by
    intro x y r r' hx hy e
    rw [Fields.Valid] at hx hy
    rw [Fields.wire, Fields.wire] at e
    rw [List.append_assoc, List.append_assoc] at e
    rw [Fields.view, Fields.view]
    by_cases hp : Present v s u
    · rw [if_pos hp, if_pos hp] at *
      obtain ⟨e1, e2⟩ := Ty.tells nulls v t _ _ _ _ ⟨_, hx.1 hp⟩ ⟨_, hy.1 hp⟩ e
      obtain ⟨e3, e4⟩ := Fields.tells nulls v rest x y r r' hx.2 hy.2 e2
      exact ⟨by rw [e1, e3], e4⟩
    · rw [if_neg hp, if_neg hp] at *
      exact Fields.tells nulls v rest x y r r' hx.2 hy.2 e
end

end Kafka.Protocol
