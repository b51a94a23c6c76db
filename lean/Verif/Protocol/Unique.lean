import Verif.Protocol.Lemmas
/-!
The bytes of a message (at a version that is not flexible) tell where it ends: no valid message is a proper
beginning of another.
-/
namespace Kafka.Protocol

open Ty

theorem bigEndian_length (w : Nat) (i : Int) : (Wire.bigEndian w i).length = w := by
  simp [Wire.bigEndian]

theorem len16_inj {i j : Int} (hi : -2 ^ 15 ≤ i) (hi' : i < 2 ^ 15) (hj : -2 ^ 15 ≤ j) (hj' : j < 2 ^ 15)
    (h : Wire.bigEndian 2 i = Wire.bigEndian 2 j) : i = j := by
  simp only [Wire.bigEndian, List.range, List.range.loop, List.reverse_cons, List.reverse_nil, List.nil_append,
    List.cons_append, List.map_cons, List.map_nil, List.cons.injEq, and_true] at h
  obtain ⟨h1, h0⟩ := h
  have h1 := congrArg BitVec.toNat h1
  have h0 := congrArg BitVec.toNat h0
  simp only [BitVec.toNat_ofInt] at h1 h0
  omega

theorem len32_inj {i j : Int} (hi : -2 ^ 31 ≤ i) (hi' : i < 2 ^ 31) (hj : -2 ^ 31 ≤ j) (hj' : j < 2 ^ 31)
    (h : Wire.bigEndian 4 i = Wire.bigEndian 4 j) : i = j := by
  simp only [Wire.bigEndian, List.range, List.range.loop, List.reverse_cons, List.reverse_nil, List.nil_append,
    List.cons_append, List.map_cons, List.map_nil, List.cons.injEq, and_true] at h
  obtain ⟨h3, h2, h1, h0⟩ := h
  have h3 := congrArg BitVec.toNat h3
  have h2 := congrArg BitVec.toNat h2
  have h1 := congrArg BitVec.toNat h1
  have h0 := congrArg BitVec.toNat h0
  simp only [BitVec.toNat_ofInt] at h3 h2 h1 h0
  omega

/-- `f` never gives a proper beginning of what it gives for another valid value. -/
def PrefixFree (p : Val → Prop) (f : Val → List Byte) : Prop :=
  ∀ x y r r', p x → p y → f x ++ r = f y ++ r' → f x = f y ∧ r = r'

theorem PrefixFree.fixed {p : Val → Prop} {f : Val → List Byte} (n : Nat) (h : ∀ x, p x → (f x).length = n) :
    PrefixFree p f := fun x y _ _ hx hy e => List.append_inj e (by rw [h x hx, h y hy])

theorem PrefixFree.items {p : Val → Prop} {f : Val → List Byte} (h : PrefixFree p f) (xs : List Val) :
    ∀ (ys : List Val) (r r' : List Byte), xs.length = ys.length → (∀ x ∈ xs, p x) → (∀ y ∈ ys, p y) →
      xs.flatMap f ++ r = ys.flatMap f ++ r' → xs.flatMap f = ys.flatMap f ∧ r = r' := by
  induction xs with
  | nil =>
    intro ys r r' hl _ _ e
    cases ys with
    | nil => exact ⟨rfl, e⟩
    | cons _ _ => simp at hl
  | cons x xs ih =>
    intro ys r r' hl hx hy e
    cases ys with
    | nil => simp at hl
    | cons y ys =>
      simp only [List.flatMap_cons, List.append_assoc] at e
      obtain ⟨e1, e2⟩ := h x y _ _ (hx x (by simp)) (hy y (by simp)) e
      obtain ⟨e3, e4⟩ := ih ys r r' (by simpa using hl) (fun z hz => hx z (by simp [hz]))
        (fun z hz => hy z (by simp [hz])) e2
      exact ⟨by simp only [List.flatMap_cons, e1, e3], e4⟩

/-- A length of `w` bytes and that many bytes. -/
theorem prefixed {w : Nat} {m : Int} (hinj : ∀ i j, -1 ≤ i → i < m → -1 ≤ j → j < m →
    Wire.bigEndian w i = Wire.bigEndian w j → i = j) {i j : Int} (hi : -1 ≤ i ∧ i < m) (hj : -1 ≤ j ∧ j < m)
    {b b' r r' : List Byte} (hb : i = b.length ∨ i = -1 ∧ b = []) (hb' : j = b'.length ∨ j = -1 ∧ b' = [])
    (e : Wire.bigEndian w i ++ b ++ r = Wire.bigEndian w j ++ b' ++ r') :
    Wire.bigEndian w i ++ b = Wire.bigEndian w j ++ b' ∧ r = r' := by
  rw [List.append_assoc, List.append_assoc] at e
  obtain ⟨e1, e2⟩ := List.append_inj e (by simp only [bigEndian_length])
  have e3 := hinj i j hi.1 hi.2 hj.1 hj.2 e1
  subst e3
  have hl : b.length = b'.length := by
    rcases hb with h | ⟨h, h'⟩ <;> rcases hb' with k | ⟨k, k'⟩ <;> simp_all <;> omega
  obtain ⟨e3, e4⟩ := List.append_inj e2 hl
  exact ⟨by rw [e3], e4⟩

theorem string_unique (nulls : Bool) (v : Int16) :
    PrefixFree (fun x => ∃ null, string.Valid nulls v null x) (string.wire false v) := by
  rintro x y r r' ⟨_, hx⟩ ⟨_, hy⟩ e
  have form : ∀ {x null}, string.Valid nulls v null x → ∃ (i : Int) (b : List Byte),
      string.wire false v x = Wire.bigEndian 2 i ++ b ∧ (-1 ≤ i ∧ i < 2 ^ 15) ∧ (i = b.length ∨ i = -1 ∧ b = []) := by
    intro x null h
    cases x with
    | str s =>
      cases s with
      | none => exact ⟨-1, [], by rw [List.append_nil]; rfl, by decide, .inr ⟨rfl, rfl⟩⟩
      | some s =>
        simp only [Ty.Valid] at h
        exact ⟨s.length, s, rfl, by omega, .inl rfl⟩
    | _ => simp only [Ty.Valid] at h
  obtain ⟨i, b, h1, h2, h3⟩ := form hx
  obtain ⟨j, b', k1, k2, k3⟩ := form hy
  rw [h1, k1] at e ⊢
  exact prefixed (m := 2 ^ 15) (fun i j a b c d => len16_inj (by omega) b (by omega) d) h2 k2 h3 k3 e

theorem bytes_unique (nulls : Bool) (v : Int16) :
    PrefixFree (fun x => ∃ null, bytes.Valid nulls v null x) (bytes.wire false v) := by
  rintro x y r r' ⟨_, hx⟩ ⟨_, hy⟩ e
  have form : ∀ {x null}, bytes.Valid nulls v null x → ∃ (i : Int) (b : List Byte),
      bytes.wire false v x = Wire.bigEndian 4 i ++ b ∧ (-1 ≤ i ∧ i < 2 ^ 31) ∧ (i = b.length ∨ i = -1 ∧ b = []) := by
    intro x null h
    cases x with
    | bytes s =>
      cases s with
      | none => exact ⟨-1, [], by rw [List.append_nil]; rfl, by decide, .inr ⟨rfl, rfl⟩⟩
      | some s =>
        simp only [Ty.Valid] at h
        exact ⟨s.length, s, rfl, by omega, .inl rfl⟩
    | _ => simp only [Ty.Valid] at h
  obtain ⟨i, b, h1, h2, h3⟩ := form hx
  obtain ⟨j, b', k1, k2, k3⟩ := form hy
  rw [h1, k1] at e ⊢
  exact prefixed (m := 2 ^ 31) (fun i j a b c d => len32_inj (by omega) b (by omega) d) h2 k2 h3 k3 e

theorem array_unique {t : Ty} (nulls : Bool) (v : Int16)
    (ht : PrefixFree (fun x => ∃ null, t.Valid nulls v null x) (t.wire false v)) :
    PrefixFree (fun x => ∃ null, (array t).Valid nulls v null x) ((array t).wire false v) := by
  rintro x y r r' ⟨_, hx⟩ ⟨_, hy⟩ e
  have form : ∀ {x null}, (array t).Valid nulls v null x → ∃ (i : Int) (l : List Val),
      (array t).wire false v x = Wire.bigEndian 4 i ++ l.flatMap (t.wire false v) ∧ (-1 ≤ i ∧ i < 2 ^ 31) ∧
        (i = l.length ∨ i = -1 ∧ l = []) ∧ ∀ x ∈ l, ∃ null, t.Valid nulls v null x := by
    intro x null h
    cases x with
    | arr s =>
      cases s with
      | none => exact ⟨-1, [], rfl, by decide, .inr ⟨rfl, rfl⟩, by simp⟩
      | some s =>
        simp only [Ty.Valid] at h
        exact ⟨s.length, s, rfl, by omega, .inl rfl, fun y hy => ⟨_, h.2 y hy⟩⟩
    | _ => simp only [Ty.Valid] at h
  obtain ⟨i, l, h1, h2, h3, h4⟩ := form hx
  obtain ⟨j, l', k1, k2, k3, k4⟩ := form hy
  rw [h1, k1] at e ⊢
  rw [List.append_assoc, List.append_assoc] at e
  obtain ⟨e1, e2⟩ := List.append_inj e (by simp only [bigEndian_length])
  have e3 := len32_inj (by omega) h2.2 (by omega) k2.2 e1
  subst e3
  have hl : l.length = l'.length := by
    rcases h3 with h | ⟨h, h'⟩ <;> rcases k3 with k | ⟨k, k'⟩ <;> simp_all <;> omega
  obtain ⟨e4, e5⟩ := ht.items l l' r r' hl h4 k4 e2
  exact ⟨by rw [e4], e5⟩

mutual
theorem Ty.unique (nulls : Bool) (v : Int16) :
    (t : Ty) → PrefixFree (fun x => ∃ null, t.Valid nulls v null x) (t.wire false v)
  | .bool => .fixed 1 fun x ⟨_, h⟩ => by cases x <;> simp only [Ty.Valid] at h; rfl
  | .int8 => .fixed 1 fun x ⟨_, h⟩ => by cases x <;> simp only [Ty.Valid] at h; rfl
  | .int16 => .fixed 2 fun x ⟨_, h⟩ => by cases x <;> simp only [Ty.Valid] at h; rfl
  | .int32 => .fixed 4 fun x ⟨_, h⟩ => by cases x <;> simp only [Ty.Valid] at h; rfl
  | .int64 => .fixed 8 fun x ⟨_, h⟩ => by cases x <;> simp only [Ty.Valid] at h; rfl
  | .string => string_unique nulls v
  | .bytes => bytes_unique nulls v
  | .array t => array_unique nulls v (Ty.unique nulls v t)
  | .struct fs => by
    rintro x y r r' ⟨_, hx⟩ ⟨_, hy⟩ e
    rw [Ty.Valid] at hx hy
    simp only [Ty.wire, Bool.false_eq_true, if_false, List.append_nil] at e ⊢
    exact Fields.unique nulls v fs x y r r' hx hy e

theorem Fields.unique (nulls : Bool) (v : Int16) :
    (fs : Fields) → PrefixFree (fs.Valid nulls v) (fs.wire false v)
  | .done => .fixed 0 fun _ _ => by rw [Fields.wire]; rfl
  | .cons n s u nf t rest => by
    intro x y r r' hx hy e
    rw [Fields.Valid] at hx hy
    rw [Fields.wire, Fields.wire] at e ⊢
    rw [List.append_assoc, List.append_assoc] at e
    by_cases hp : Present v s u
    · rw [if_pos hp, if_pos hp] at *
      obtain ⟨e1, e2⟩ := Ty.unique nulls v t _ _ _ _ ⟨_, hx.1 hp⟩ ⟨_, hy.1 hp⟩ e
      obtain ⟨e3, e4⟩ := Fields.unique nulls v rest x y r r' hx.2 hy.2 e2
      exact ⟨by rw [e1, e3], e4⟩
    · rw [if_neg hp, if_neg hp] at *
      exact Fields.unique nulls v rest x y r r' hx.2 hy.2 e
end

end Kafka.Protocol
