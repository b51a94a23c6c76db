import Verif.Message.Encoder
import Verif.Message.Sizeof
import Verif.Message.DecLemmas
/-!
Reasoning principles for encoder methods and sizes.
-/
namespace Kafka

/-- Write the chunks one after the other, stopping at the first error. -/
def writeAll (cs : List (List Byte)) (e : Encoder) : Encoder :=
  cs.foldl (fun e c => if e.err.isSome then e else e.targetWrite c) e

theorem writeAll_append (cs ds : List (List Byte)) (e : Encoder) :
    writeAll (cs ++ ds) e = writeAll ds (writeAll cs e) := by
  simp [writeAll, List.foldl_append]

theorem writeAll_err {cs : List (List Byte)} {e : Encoder} (h : e.err.isSome) :
    writeAll cs e = e := by
  induction cs with
  | nil => rfl
  | cons c cs ih =>
    show writeAll cs (if e.err.isSome then e else e.targetWrite c) = e
    rw [if_pos h, ih]

/-- `f` behaves like a sequence of guarded writes whose concatenation is `bs`. -/
def Emits (f : Encoder → Encoder) (bs : List Byte) : Prop :=
  ∃ cs : List (List Byte), cs.flatten = bs ∧ ∀ e, f e = writeAll cs e

theorem Emits.id : Emits (fun e => e) [] := ⟨[], rfl, fun _ => rfl⟩

theorem Emits.comp {f g : Encoder → Encoder} {as bs : List Byte} (hf : Emits f as)
    (hg : Emits g bs) : Emits (fun e => g (f e)) (as ++ bs) := by
  obtain ⟨cs, h1, h2⟩ := hf
  obtain ⟨ds, h3, h4⟩ := hg
  refine ⟨cs ++ ds, by simp [h1, h3], fun e => ?_⟩
  rw [writeAll_append, ← h2, ← h4]

theorem Emits.ite {c : Prop} [Decidable c] {f g : Encoder → Encoder} {as bs : List Byte}
    (hf : Emits f as) (hg : Emits g bs) :
    Emits (fun e => if c then f e else g e) (if c then as else bs) := by
  by_cases h : c
  · simpa [h] using hf
  · simpa [h] using hg

/-- A field guarded by a version test. -/
theorem Emits.when {c : Prop} [Decidable c] {f : Encoder → Encoder} {as : List Byte}
    (hf : Emits f as) : Emits (fun e => if c then f e else e) (Wire.when c as) :=
  Emits.ite hf Emits.id

theorem Emits.foldl {α : Type _} {f : α → Encoder → Encoder} {w : α → List Byte}
    (hf : ∀ x, Emits (f x) (w x)) (l : List α) :
    Emits (fun e => l.foldl (fun e x => f x e) e) (l.flatMap w) := by
  induction l with
  | nil => exact Emits.id
  | cons x l ih => exact (hf x).comp ih

theorem Emits.congr {f : Encoder → Encoder} {as bs : List Byte} (h : Emits f as)
    (hab : as = bs) : Emits f bs := hab ▸ h

theorem Emits.single (c : List Byte) :
    Emits (fun e => if e.err.isSome then e else e.targetWrite c) c :=
  ⟨[c], by simp, fun _ => rfl⟩

theorem emits_int8 (i : Int8) : Emits (fun e => e.putInt8 i) (Wire.int8 i) :=
  (Emits.single _).congr (wire_int8 i).symm
theorem emits_int16 (i : Int16) : Emits (fun e => e.putInt16 i) (Wire.int16 i) :=
  (Emits.single _).congr (wire_int16 i).symm
theorem emits_int32 (i : Int32) : Emits (fun e => e.putInt32 i) (Wire.int32 i) :=
  (Emits.single _).congr (wire_int32 i).symm
theorem emits_int64 (i : Int64) : Emits (fun e => e.putInt64 i) (Wire.int64 i) :=
  (Emits.single _).congr (wire_int64 i).symm

theorem emits_bool (b : Bool) : Emits (fun e => e.putBool b) (Wire.bool b) := by
  cases b
  · exact emits_int8 0
  · exact emits_int8 1

theorem guarded_swap (e : Encoder) (c : List Byte) :
    (if e.err.isNone then e.targetWrite c else e) =
      (if e.err.isSome then e else e.targetWrite c) := by
  cases e.err <;> rfl

theorem emits_string (s : GoString) : Emits (fun e => e.putString s) (Wire.string s) := by
  have := (emits_int16 (Int16.ofNat s.length)).comp (Emits.single s)
  simp only [← guarded_swap] at this
  exact this

theorem emits_nullableString (s : Option GoString) :
    Emits (fun e => e.putNullableString s) (Wire.nullableString s) := by
  cases s with
  | none => exact emits_int16 (-1)
  | some s => exact emits_string s

theorem emits_bytes (s : Slice Byte) : Emits (fun e => e.putBytes s) (Wire.bytes s) := by
  have := (emits_int32 (Int32.ofNat s.len)).comp (Emits.single s.elems)
  simp only [← guarded_swap] at this
  exact this

theorem emits_arrayLength (n : Nat) :
    Emits (fun e => e.putArrayLength n) (Wire.int32 (Int32.ofNat n)) := emits_int32 _

/-- An early `if e.err != nil { return }` changes nothing. -/
theorem Emits.early {f : Encoder → Encoder} {bs : List Byte} (hf : Emits f bs) :
    Emits (fun e => if e.err.isSome then e else f e) bs := by
  obtain ⟨cs, h1, h2⟩ := hf
  refine ⟨cs, h1, fun e => ?_⟩
  by_cases h : e.err.isSome
  · simp only [h]; rw [writeAll_err h]; rfl
  · simp only [h]; exact h2 e

theorem emits_some {α : Type} {f : Encoder → α → Encoder} {w : α → List Byte}
    (hf : ∀ x, Emits (fun e => f e x) (w x)) (l : List α) :
    Emits (fun e => l.foldl f (e.putArrayLength l.length)) (Wire.nullableArray w (some l)) :=
  (emits_arrayLength l.length).comp (Emits.foldl (f := fun x e => f e x) hf l)

theorem emits_int32Array (s : Slice Int32) :
    Emits (fun e => e.putInt32Array s) (Wire.int32Array s) := by
  apply Emits.early
  cases s with
  | none => exact emits_int32 (-1)
  | some l => exact emits_some emits_int32 l
theorem emits_int64Array (s : Slice Int64) :
    Emits (fun e => e.putInt64Array s) (Wire.int64Array s) := by
  apply Emits.early
  cases s with
  | none => exact emits_int32 (-1)
  | some l => exact emits_some emits_int64 l
theorem emits_stringArray (s : Slice GoString) :
    Emits (fun e => e.putStringArray s) (Wire.stringArray s) := by
  apply Emits.early
  cases s with
  | none => exact emits_int32 (-1)
  | some l => exact emits_some emits_string l

theorem emits_structs {α : Type} {f : α → Encoder → Encoder} {w : α → List Byte}
    (hf : ∀ x, Emits (f x) (w x)) (s : Slice α) :
    Emits (Encoder.putStructs f s) (Wire.array w s) :=
  (emits_arrayLength s.len).comp (Emits.foldl hf s.elems)

/-! ### Consequences of `Emits` -/

/-- What a run of guarded writes does to the target. -/
structure Ran (e e' : Encoder) (bs : List Byte) : Prop where
  /-- the target's behaviour is not changed -/
  faults : e'.faults = e.faults
  /-- what is appended is a prefix of `bs` -/
  pre : ∃ p, p <+: bs ∧ e'.out = e.out ++ p
  /-- without an error everything has been appended -/
  full : e'.err = none → e'.out = e.out ++ bs
  calls : e.calls ≤ e'.calls
  /-- without an error no write failed -/
  clean : e'.err = none → ∀ k, e.calls ≤ k → k < e'.calls → e.faults k = none
  /-- with an error, the last write is the one that failed, with that error, and none
  before it failed -/
  stop : ∀ x, e'.err = some x → ∃ k m, e'.calls = k + 1 ∧ e.calls ≤ k ∧
    e.faults k = some (m, x) ∧ ∀ j, e.calls ≤ j → j < k → e.faults j = none

theorem writeAll_ran (cs : List (List Byte)) (e : Encoder) (he : e.err = none) :
    Ran e (writeAll cs e) cs.flatten := by
  induction cs generalizing e with
  | nil =>
    exact ⟨rfl, ⟨[], by simp [writeAll]⟩, by simp [writeAll], Nat.le_refl _,
      by intro _ k h1 h2; simp only [writeAll, List.foldl_nil] at h2; omega,
      by intro x hx; simp [writeAll, he] at hx⟩
  | cons c cs ih =>
    have hstep : writeAll (c :: cs) e = writeAll cs (e.targetWrite c) := by
      show writeAll cs (if e.err.isSome then e else e.targetWrite c) = _
      rw [he]; rfl
    rw [hstep]
    cases hf : e.faults e.calls with
    | none =>
      have ht : e.targetWrite c = { e with out := e.out ++ c, calls := e.calls + 1, err := none } := by
        unfold Encoder.targetWrite; rw [hf]
      rw [ht]
      have := ih { e with out := e.out ++ c, calls := e.calls + 1, err := none } rfl
      obtain ⟨h1, ⟨p, hp1, hp2⟩, h3, h4, h5, h6⟩ := this
      refine ⟨h1, ⟨c ++ p, ?_, ?_⟩, ?_, ?_, ?_, ?_⟩
      · simpa using hp1
      · simpa using hp2
      · intro h; simpa using h3 h
      · exact Nat.le_of_succ_le h4
      · intro h k hk1 hk2
        rcases Nat.eq_or_lt_of_le hk1 with hk | hk
        · rw [← hk]; exact hf
        · exact h5 h k hk hk2
      · intro x hx
        obtain ⟨k, m, a1, a2, a3, a4⟩ := h6 x hx
        refine ⟨k, m, a1, Nat.le_of_succ_le a2, a3, fun j hj1 hj2 => ?_⟩
        rcases Nat.eq_or_lt_of_le hj1 with hj | hj
        · rw [← hj]; exact hf
        · exact a4 j hj hj2
    | some mx =>
      obtain ⟨m, x⟩ := mx
      have ht : e.targetWrite c =
          { e with out := e.out ++ c.take m, calls := e.calls + 1, err := some x } := by
        unfold Encoder.targetWrite; rw [hf]
      rw [ht, writeAll_err (by rfl)]
      refine ⟨rfl, ⟨c.take m, ?_, rfl⟩, by simp, by simp, by simp, ?_⟩
      · rw [List.flatten_cons]
        exact (List.take_prefix m c).trans (List.prefix_append _ _)
      · intro y hy
        simp only [Option.some.injEq] at hy
        subst hy
        exact ⟨e.calls, m, rfl, Nat.le_refl _, hf, fun j h1 h2 => by omega⟩

theorem Emits.ran {f : Encoder → Encoder} {bs : List Byte} (h : Emits f bs) {e : Encoder}
    (he : e.err = none) : Ran e (f e) bs := by
  obtain ⟨cs, rfl, h2⟩ := h
  rw [h2]; exact writeAll_ran cs e he

/-- Sticky: after an error nothing happens any more. -/
theorem Emits.sticky {f : Encoder → Encoder} {bs : List Byte} (h : Emits f bs) {e : Encoder}
    (he : e.err.isSome) : f e = e := by
  obtain ⟨cs, _, h2⟩ := h
  rw [h2, writeAll_err he]

/-- A writer that accepts everything. -/
def Reliable (e : Encoder) : Prop := e.err = none ∧ ∀ k, e.faults k = none

theorem Emits.reliable {f : Encoder → Encoder} {bs : List Byte} (h : Emits f bs) {e : Encoder}
    (he : Reliable e) : (f e).err = none ∧ (f e).out = e.out ++ bs := by
  have := h.ran he.1
  have h0 : (f e).err = none := by
    cases hx : (f e).err with
    | none => rfl
    | some x =>
      obtain ⟨k, m, _, _, h3, _⟩ := this.stop x hx
      rw [he.2] at h3
      simp at h3
  exact ⟨h0, this.full h0⟩

/-- The bytes written into an empty, reliable writer (a `bytes.Buffer`). -/
def bytesOf (f : Encoder → Encoder) : List Byte := (f (newEncoder fun _ => none)).out

theorem Emits.bytesOf {f : Encoder → Encoder} {bs : List Byte} (h : Emits f bs) :
    bytesOf f = bs := by
  have := (h.reliable (e := newEncoder fun _ => none) ⟨rfl, fun _ => rfl⟩).2
  simpa [newEncoder, Kafka.bytesOf] using this

/-! ### Sizes -/

/-- `sz` is the number of bytes, as an int32. -/
def Sized (sz : Int32) (bs : List Byte) : Prop := sz = Int32.ofNat bs.length

theorem Sized.append {a b : Int32} {as bs : List Byte} (ha : Sized a as) (hb : Sized b bs) :
    Sized (a + b) (as ++ bs) := by
  unfold Sized at *
  rw [ha, hb, List.length_append, Int32.ofNat_add]

theorem Sized.zero : Sized 0 [] := rfl

theorem Sized.when {c : Prop} [Decidable c] {a b : Int32} {as bs : List Byte}
    (ha : Sized a as) (hb : Sized b (as ++ bs)) :
    Sized (if c then b else a) (as ++ Wire.when c bs) := by
  unfold Wire.when
  split
  · exact hb
  · simpa using ha

theorem Sized.structs {α : Type} {size : α → Int32} {w : α → List Byte}
    (h : ∀ x, Sized (size x) (w x)) {sz : Int32} {bs : List Byte} (hsz : Sized sz bs)
    (s : Slice α) : Sized (Sizeof.structs size s sz) (bs ++ Wire.array w s) := by
  unfold Sizeof.structs Wire.array
  have key : ∀ (l : List α) (sz : Int32), l.reverse.foldl (fun sz x => sz + size x) sz =
      sz + Int32.ofNat (l.flatMap w).length := by
    intro l
    induction l with
    | nil => intro sz; simp
    | cons x l ih =>
      intro sz
      rw [List.reverse_cons, List.foldl_append, ih]
      simp only [List.foldl_cons, List.foldl_nil, List.flatMap_cons, List.length_append,
        Int32.ofNat_add]
      rw [h x, Int32.add_assoc, Int32.add_comm (Int32.ofNat (List.flatMap w l).length)]
  rw [key]
  unfold Sized at *
  simp only [List.length_append, Int32.ofNat_add, hsz, Int32.add_assoc]
  rfl

theorem sized_bool (b : Bool) : Sized Sizeof.bool (Wire.bool b) := rfl
theorem sized_int8 (i : Int8) : Sized Sizeof.int8 (Wire.int8 i) := rfl
theorem sized_int16 (i : Int16) : Sized Sizeof.int16 (Wire.int16 i) := rfl
theorem sized_int32 (i : Int32) : Sized Sizeof.int32 (Wire.int32 i) := rfl
theorem sized_int64 (i : Int64) : Sized Sizeof.int64 (Wire.int64 i) := rfl

theorem sized_string (s : GoString) : Sized (Sizeof.string s) (Wire.string s) :=
  Sized.append (sized_int16 _) rfl
theorem sized_bytes (s : Slice Byte) : Sized (Sizeof.bytes s) (Wire.bytes s) :=
  Sized.append (sized_int32 _) rfl

theorem flatMap_length_const {α : Type} {w : α → List Byte} {n : Nat} (h : ∀ x, (w x).length = n)
    (l : List α) : (l.flatMap w).length = l.length * n := by
  induction l with
  | nil => simp
  | cons x l ih => simp [ih, h, Nat.succ_mul]; omega

theorem sized_fixedArray {α : Type} {w : α → List Byte} {n : Nat} (h : ∀ x, (w x).length = n)
    (s : Slice α) : Sized (Sizeof.arrayLength + Int32.ofNat s.len * Int32.ofNat n)
      (Wire.nullableArray w s) := by
  cases s with
  | none => simp [Slice.len, Slice.elems, Wire.nullableArray, Sized]; rfl
  | some l =>
    refine Sized.append (sized_int32 _) ?_
    show _ = _
    rw [flatMap_length_const h, Int32.ofNat_mul]; rfl

theorem sized_int32Array (s : Slice Int32) : Sized (Sizeof.int32Array s) (Wire.int32Array s) :=
  sized_fixedArray (n := 4) (fun _ => rfl) s
theorem sized_int64Array (s : Slice Int64) : Sized (Sizeof.int64Array s) (Wire.int64Array s) :=
  sized_fixedArray (n := 8) (fun _ => rfl) s

theorem sized_stringArray (s : Slice GoString) :
    Sized (Sizeof.stringArray s) (Wire.stringArray s) := by
  unfold Sizeof.stringArray
  have key : ∀ (l : List GoString) (sz : Int32),
      l.foldl (fun sz s => sz + Sizeof.string s) sz =
        sz + Int32.ofNat (l.flatMap Wire.string).length := by
    intro l
    induction l with
    | nil => intro sz; simp
    | cons x l ih =>
      intro sz
      rw [List.foldl_cons, ih]
      simp only [List.flatMap_cons, List.length_append, Int32.ofNat_add]
      rw [sized_string x, Int32.add_assoc]
  rw [key]
  cases s with
  | none => rfl
  | some l => exact Sized.append (sized_int32 (Int32.ofNat l.length)) rfl

end Kafka
