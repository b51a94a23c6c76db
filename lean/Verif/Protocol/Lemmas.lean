import Verif.Protocol.Messages
import Verif.Message.StepLemmas
/-!
Between the values of the protocol and those of the client.
-/
namespace Kafka.Protocol

open Ty

/-! ### The parts of a value -/

def Val.toBool : Val → Bool | .bool b => b | _ => false
def Val.toInt8 : Val → Int8 | .int8 i => i | _ => 0
def Val.toInt16 : Val → Int16 | .int16 i => i | _ => 0
def Val.toInt32 : Val → Int32 | .int32 i => i | _ => 0
def Val.toInt64 : Val → Int64 | .int64 i => i | _ => 0
def Val.toStr : Val → GoString | .str (some s) => s | _ => []
def Val.toBytes : Val → Slice Byte | .bytes (some b) => some b | _ => none
/-- null is nil -/
def Val.toSlice {α : Type} (f : Val → α) : Val → Slice α | .arr (some xs) => some (xs.map f) | _ => none
/-- null leaves the slice as it was -/
def Val.toSliceOr {α : Type} (f : Val → α) (old : Slice α) : Val → Slice α
  | .arr (some xs) => some (xs.map f) | _ => old

/-- An array of the protocol for a slice of scalars; nil is null. -/
def ofScalars {α : Type} (f : α → Val) (s : Slice α) : Val := .arr (s.map (·.map f))
/-- An array of the protocol for a slice of structures; nil is empty. -/
def ofStructs {α : Type} (f : α → Val) (s : Slice α) : Val := .arr (some (s.elems.map f))

/-! ### Lengths -/

theorem len16 (n : Nat) : Wire.bigEndian 2 n = Wire.int16 (Int16.ofNat n) := by
  unfold Wire.int16 Wire.bigEndian
  apply List.map_congr_left
  intro k hk
  rw [List.mem_reverse, List.mem_range] at hk
  apply BitVec.eq_of_toNat_eq
  have h : (Int16.ofNat n).toInt = (n : Int).bmod (2 ^ 16) := Int16.toInt_ofNat' ..
  rw [h]
  simp only [BitVec.toNat_ofInt, Int.bmod]
  obtain rfl | rfl : k = 0 ∨ k = 1 := by omega
  all_goals split <;> omega

theorem len32 (n : Nat) : Wire.bigEndian 4 n = Wire.int32 (Int32.ofNat n) := by
  unfold Wire.int32 Wire.bigEndian
  apply List.map_congr_left
  intro k hk
  rw [List.mem_reverse, List.mem_range] at hk
  apply BitVec.eq_of_toNat_eq
  have h : (Int32.ofNat n).toInt = (n : Int).bmod (2 ^ 32) := Int32.toInt_ofNat' ..
  rw [h]
  simp only [BitVec.toNat_ofInt, Int.bmod]
  obtain rfl | rfl | rfl | rfl : k = 0 ∨ k = 1 ∨ k = 2 ∨ k = 3 := by omega
  all_goals split <;> omega

/-! ### Writing: the bytes of the values of each type -/

section
variable (v : Int16)

theorem wire_bool (b : Bool) : bool.wire false v (.bool b) = Wire.bool b := rfl
theorem wire_int8 (i : Int8) : int8.wire false v (.int8 i) = Wire.int8 i := rfl
theorem wire_int16 (i : Int16) : int16.wire false v (.int16 i) = Wire.int16 i := rfl
theorem wire_int32 (i : Int32) : int32.wire false v (.int32 i) = Wire.int32 i := rfl
theorem wire_int64 (i : Int64) : int64.wire false v (.int64 i) = Wire.int64 i := rfl
theorem wire_string (s : GoString) : string.wire false v (.str (some s)) = Wire.string s := by
  rw [Ty.wire, Wire.string, ← len16]; rfl
theorem wire_bytes (s : Slice Byte) : bytes.wire false v (.bytes (some s.elems)) = Wire.bytes s := by
  rw [Ty.wire, Wire.bytes, ← len32]; rfl

theorem wire_scalars {α : Type} {t : Ty} {f : α → Val} {w : α → List Byte}
    (h : ∀ x, t.wire false v (f x) = w x) (s : Slice α) :
    (array t).wire false v (ofScalars f s) = Wire.nullableArray w s := by
  cases s with
  | none => rfl
  | some l =>
    rw [ofScalars, Option.map_some, Ty.wire, Wire.nullableArray, ← len32, List.length_map, List.flatMap_map]
    simp only [h]
    rfl

theorem wire_int32Array (s : Slice Int32) :
    (array int32).wire false v (ofScalars .int32 s) = Wire.int32Array s := wire_scalars v (wire_int32 v) s
theorem wire_int64Array (s : Slice Int64) :
    (array int64).wire false v (ofScalars .int64 s) = Wire.int64Array s := wire_scalars v (wire_int64 v) s
theorem wire_stringArray (s : Slice GoString) :
    (array string).wire false v (ofScalars (fun s => .str (some s)) s) = Wire.stringArray s :=
  wire_scalars v (wire_string v) s

theorem wire_structs {α : Type} {fs : Fields} {f : α → Val} {w : α → List Byte}
    (h : ∀ x, fs.wire false v (f x) = w x) (s : Slice α) :
    (array (struct fs)).wire false v (ofStructs f s) = Wire.array w s := by
  rw [ofStructs, Ty.wire, Wire.array, ← len32, List.length_map, List.flatMap_map]
  simp only [Ty.wire, h, Bool.false_eq_true, if_false, List.append_nil]
  rfl

end

/-! ### Writing: structures.  `acc` is what the fields before have written. -/

/-- With `acc` written before, the fields give `total`. -/
def Writes (v : Int16) (fs : Fields) (x : Val) (acc total : List Byte) : Prop :=
  acc ++ fs.wire false v x = total

theorem Writes.done {v : Int16} {x : Val} {acc : List Byte} : Writes v .done x acc acc := by
  simp [Writes, Fields.wire]

section
variable {v : Int16} {n : String} {s u : Int16} {nf : Option Int16} {t : Ty} {rest : Fields} {x : Val}
  {acc total w : List Byte}

theorem Writes.all (hv : 0 ≤ v) (h : t.wire false v (x.get n) = w) (hr : Writes v rest x (acc ++ w) total) :
    Writes v (.cons n 0 none nf t rest) x acc total := by
  rw [Writes, Fields.wire, if_pos (show Present v 0 none from hv), h, ← List.append_assoc]
  exact hr

theorem Writes.since (h : t.wire false v (x.get n) = w)
    (hr : Writes v rest x (acc ++ Wire.when (v ≥ s) w) total) :
    Writes v (.cons n s none nf t rest) x acc total := by
  rw [Writes, Fields.wire, h, ← List.append_assoc]
  exact hr

theorem Writes.between (h : t.wire false v (x.get n) = w)
    (hr : Writes v rest x (acc ++ Wire.when (v ≥ s ∧ v ≤ u) w) total) :
    Writes v (.cons n s (some u) nf t rest) x acc total := by
  rw [Writes, Fields.wire, h, ← List.append_assoc]
  exact hr

/-- a field of the protocol that the version does not have -/
theorem Writes.absent {u : Option Int16} (h : ¬ Present v s u) (hr : Writes v rest x acc total) :
    Writes v (.cons n s u nf t rest) x acc total := by
  rw [Writes, Fields.wire, if_neg h]
  exact hr

/-- a field of the client that the version does not have -/
theorem Writes.extra {fs : Fields} {c : Prop} [Decidable c] (h : ¬ c)
    (hr : Writes v fs x (acc ++ Wire.when c w) total) : Writes v fs x acc total := by
  rwa [Wire.when, if_neg h, List.append_nil] at hr

theorem Writes.eq {fs : Fields} (h : Writes v fs x [] total) : fs.wire false v x = total := h

end

/-! ### Reading -/

theorem Fields.Valid.head {nulls : Bool} {v : Int16} {n : String} {s : Int16} {u nf : Option Int16} {t : Ty}
    {rest : Fields} {x : Val} (h : (Fields.cons n s u nf t rest).Valid nulls v x) (hp : Present v s u) :
    t.Valid nulls v (nf.any (· ≤ v)) (x.get n) := by
  rw [Fields.Valid] at h; exact h.1 hp

theorem Fields.Valid.tail {nulls : Bool} {v : Int16} {n : String} {s : Int16} {u nf : Option Int16} {t : Ty}
    {rest : Fields} {x : Val} (h : (Fields.cons n s u nf t rest).Valid nulls v x) : rest.Valid nulls v x := by
  rw [Fields.Valid] at h; exact h.2

section
variable {nulls : Bool} {v : Int16} {null : Bool} {x : Val}

theorem read_bool (h : bool.Valid nulls v null x) : Reads Dec.bool (bool.wire false v x) x.toBool := by
  cases x <;> simp only [Ty.Valid] at h
  exact reads_bool _
theorem read_int8 (h : int8.Valid nulls v null x) : Reads Dec.int8 (int8.wire false v x) x.toInt8 := by
  cases x <;> simp only [Ty.Valid] at h
  exact reads_int8 _
theorem read_int16 (h : int16.Valid nulls v null x) : Reads Dec.int16 (int16.wire false v x) x.toInt16 := by
  cases x <;> simp only [Ty.Valid] at h
  exact reads_int16 _
theorem read_int32 (h : int32.Valid nulls v null x) : Reads Dec.int32 (int32.wire false v x) x.toInt32 := by
  cases x <;> simp only [Ty.Valid] at h
  exact reads_int32 _
theorem read_int64 (h : int64.Valid nulls v null x) : Reads Dec.int64 (int64.wire false v x) x.toInt64 := by
  cases x <;> simp only [Ty.Valid] at h
  exact reads_int64 _
theorem read_string (h : string.Valid nulls v null x) : Reads Dec.string (string.wire false v x) x.toStr := by
  cases x with
  | str s =>
    cases s with
    | some s => rw [wire_string]; exact reads_string h
    | none =>
      have h1 := (reads_int16 (-1)).bind (k := fun n => if n = -1 then pure ([] : GoString) else Dec.takeBytes n.toInt)
        (bs := []) (b := []) (Reads.pure _)
      exact h1.congr (by rw [List.append_nil]; rfl) rfl
  | _ => simp only [Ty.Valid] at h
theorem read_bytes (h : bytes.Valid false v null x) : Reads Dec.bytes (bytes.wire false v x) x.toBytes := by
  cases x with
  | bytes b =>
    cases b with
    | some b => exact (reads_bytes (s := some b) h).congr (wire_bytes v (some b)).symm rfl
    | none => simp [Ty.Valid] at h
  | _ => simp only [Ty.Valid] at h

theorem reads_items {α : Type} {f : Dec α} {t : Ty} {g : Val → α} (l : List Val)
    (h : ∀ x ∈ l, Reads f (t.wire false v x) (g x)) :
    Reads (Dec.loop f l.length) (l.flatMap (t.wire false v)) (l.map g) := by
  induction l with
  | nil => exact Reads.pure _
  | cons x l ih =>
    refine (h x (by simp)).bind (Reads.map ?_)
    exact ih fun y hy => h y (by simp [hy])

theorem read_arrayOf {α : Type} {f : Dec α} {t : Ty} {g : Val → α}
    (hf : ∀ y, t.Valid nulls v false y → Reads f (t.wire false v y) (g y))
    (h : (array t).Valid nulls v null x) :
    Reads (Dec.arrayOf f) ((array t).wire false v x) (x.toSlice g) := by
  cases x with
  | arr xs =>
    cases xs with
    | none =>
      have := reads_arrayOf (f := f) (w := fun _ => []) (s := none) (by simp [FitsSlice, Slice.len, Slice.elems])
        (by simp [Slice.elems])
      exact this
    | some l =>
      rw [Ty.Valid] at h
      have hl : Wire.bigEndian 4 l.length = Wire.int32 (Int32.ofNat l.length) := len32 _
      rw [Ty.wire]
      simp only [Bool.false_eq_true, if_false, hl]
      refine (reads_arrayLength h.1).bind ?_
      rw [if_neg (by omega), if_neg (by omega)]
      exact Reads.map (reads_items l fun y hy => hf y (h.2 y hy))
  | _ => simp only [Ty.Valid] at h

theorem read_int32Array (h : (array int32).Valid nulls v null x) :
    Reads Dec.int32Array ((array int32).wire false v x) (x.toSlice Val.toInt32) :=
  read_arrayOf (fun _ hy => read_int32 hy) h
theorem read_int64Array (h : (array int64).Valid nulls v null x) :
    Reads Dec.int64Array ((array int64).wire false v x) (x.toSlice Val.toInt64) :=
  read_arrayOf (fun _ hy => read_int64 hy) h
theorem read_stringArray (h : (array string).Valid nulls v null x) :
    Reads Dec.stringArray ((array string).wire false v x) (x.toSlice Val.toStr) :=
  read_arrayOf (fun _ hy => read_string hy) h

theorem read_structs {α : Type} {f : Dec α} {fs : Fields} {g : Val → α} (old : Slice α)
    (hf : ∀ y, fs.Valid nulls v y → Reads f (fs.wire false v y) (g y))
    (h : (array (struct fs)).Valid nulls v null x) :
    Reads (Dec.structs f old) ((array (struct fs)).wire false v x) (x.toSliceOr g old) := by
  cases x with
  | arr xs =>
    cases xs with
    | none =>
      have h1 := (reads_int32 (-1)).map (g := fun x => x.toInt)
      have h2 := h1.bind (k := fun n => if n ≥ 0 then Dec.loop f n.toNat >>= fun items => pure (some items) else pure old)
        (bs := []) (b := old) (by exact Reads.pure _)
      exact h2.congr (by rw [List.append_nil]; rfl) rfl
    | some l =>
      rw [Ty.Valid] at h
      have hl : Wire.bigEndian 4 l.length = Wire.int32 (Int32.ofNat l.length) := len32 _
      rw [Ty.wire]
      simp only [Bool.false_eq_true, if_false, hl]
      refine (reads_arrayLength h.1).bind ?_
      rw [if_pos (by omega)]
      refine Reads.map (reads_items l fun y hy => ?_)
      have h3 := h.2 y hy
      rw [Ty.Valid] at h3
      rw [Ty.wire]
      simp only [Bool.false_eq_true, if_false, List.append_nil]
      exact hf y h3
  | _ => simp only [Ty.Valid] at h

theorem Step.readStructs {τ α : Type} {f : Dec α} {fs : Fields} {g : Val → α} {get : τ → Slice α}
    {set : τ → Slice α → τ}
    (hf : ∀ y, fs.Valid nulls v y → Reads f (fs.wire false v y) (g y))
    (h : (array (struct fs)).Valid nulls v null x) :
    Step (Dec.fieldStructs f get set) ((array (struct fs)).wire false v x)
      (fun t => set t (x.toSliceOr g (get t))) := fun _ => Reads.map (read_structs _ hf h)

theorem Step.readOptStructs {τ α : Type} {c : Prop} [Decidable c] {f : Dec α} {fs : Fields} {g : Val → α}
    {get : τ → Slice α} {set : τ → Slice α → τ} (hget : ∀ t, set t (get t) = t)
    (hf : ∀ y, fs.Valid nulls v y → Reads f (fs.wire false v y) (g y))
    (h : c → (array (struct fs)).Valid nulls v null x) :
    Step (Dec.onlyIf c (Dec.fieldStructs f get set)) (Wire.when c ((array (struct fs)).wire false v x))
      (fun t => set t (if c then x.toSliceOr g (get t) else get t)) := fun t => by
  unfold Dec.onlyIf Wire.when
  by_cases hc : c
  · simp only [hc, if_true]; exact Reads.map (read_structs _ hf (h hc))
  · simp only [hc, if_false, hget]; exact Reads.pure _

/-- a field of the client that the version does not have -/
theorem Step.absent {τ α : Type} {c : Prop} [Decidable c] {m : Dec α} {set : τ → α → τ} {w : List Byte}
    (h : ¬ c) : Step (Dec.onlyIf c (Dec.field m set)) (Wire.when c w) (fun t => t) := fun t => by
  unfold Dec.onlyIf Wire.when
  rw [if_neg h, if_neg h]; exact Reads.pure _

theorem notOne {v : Int16} (h : v ≠ 1) : ¬ Present v 1 (some 1) := by
  rintro ⟨h1, h2⟩
  exact h (Int16.le_antisymm h2 h1)

theorem notFive {v : Int16} (h : v < 5) : ¬ v ≥ 5 := Int16.not_le.2 h

end

/-! ### What is read is what was written -/

mutual
/-- `x` is of the type, as far as the fields that are there at version `v` go; everything may be null, and lengths
do not matter. -/
def Ty.Typed (v : Int16) : Ty → Val → Prop
  | .bool, .bool _ => True
  | .int8, .int8 _ => True
  | .int16, .int16 _ => True
  | .int32, .int32 _ => True
  | .int64, .int64 _ => True
  | .string, .str _ => True
  | .bytes, .bytes _ => True
  | .array _, .arr none => True
  | .array t, .arr (some xs) => ∀ x ∈ xs, t.Typed v x
  | .struct fs, x => fs.Typed v x
  | _, _ => False

def Fields.Typed (v : Int16) : Fields → Val → Prop
  | .done, _ => True
  | .cons name since upto _ t rest, x => (Present v since upto → t.Typed v (x.get name)) ∧ rest.Typed v x
end

mutual
theorem Ty.Valid.typed {nulls : Bool} {v : Int16} : ∀ {t : Ty} {null : Bool} {x : Val}, t.Valid nulls v null x → t.Typed v x
  | .bool, _, x, h => by cases x <;> simp_all [Ty.Valid, Ty.Typed]
  | .int8, _, x, h => by cases x <;> simp_all [Ty.Valid, Ty.Typed]
  | .int16, _, x, h => by cases x <;> simp_all [Ty.Valid, Ty.Typed]
  | .int32, _, x, h => by cases x <;> simp_all [Ty.Valid, Ty.Typed]
  | .int64, _, x, h => by cases x <;> simp_all [Ty.Valid, Ty.Typed]
  | .string, _, x, h => by cases x <;> simp_all [Ty.Valid, Ty.Typed]
  | .bytes, _, x, h => by cases x <;> simp_all [Ty.Valid, Ty.Typed]
  | .array t, _, .arr none, h => by rw [Ty.Typed]; trivial
  | .array t, _, .arr (some xs), h => by
    rw [Ty.Valid] at h
    rw [Ty.Typed]
    exact fun x hx => (h.2 x hx).typed
  | .array t, _, .bool _, h => by simp [Ty.Valid] at h
  | .array t, _, .int8 _, h => by simp [Ty.Valid] at h
  | .array t, _, .int16 _, h => by simp [Ty.Valid] at h
  | .array t, _, .int32 _, h => by simp [Ty.Valid] at h
  | .array t, _, .int64 _, h => by simp [Ty.Valid] at h
  | .array t, _, .str _, h => by simp [Ty.Valid] at h
  | .array t, _, .bytes _, h => by simp [Ty.Valid] at h
  | .array t, _, .struct _, h => by simp [Ty.Valid] at h
  | .struct fs, _, x, h => by
    rw [Ty.Valid] at h
    rw [Ty.Typed]
    exact Fields.Valid.typed h

theorem Fields.Valid.typed {nulls : Bool} {v : Int16} : ∀ {fs : Fields} {x : Val}, fs.Valid nulls v x → fs.Typed v x
  | .done, _, _ => by rw [Fields.Typed]; trivial
  | .cons name since upto nf t rest, x, h => by
    rw [Fields.Valid] at h
    rw [Fields.Typed]
    exact ⟨fun hp => (h.1 hp).typed, Fields.Valid.typed h.2⟩
end

theorem Fields.Typed.head {v : Int16} {n : String} {s : Int16} {u nf : Option Int16} {t : Ty}
    {rest : Fields} {x : Val} (h : (Fields.cons n s u nf t rest).Typed v x) (hp : Present v s u) :
    t.Typed v (x.get n) := by
  rw [Fields.Typed] at h; exact h.1 hp

theorem Fields.Typed.tail {v : Int16} {n : String} {s : Int16} {u nf : Option Int16} {t : Ty}
    {rest : Fields} {x : Val} (h : (Fields.cons n s u nf t rest).Typed v x) : rest.Typed v x := by
  rw [Fields.Typed] at h; exact h.2

section
variable {v : Int16} {x : Val}

theorem show_bool (h : bool.Typed v x) : bool.shows v x (.bool x.toBool) = true := by
  cases x <;> simp_all [Ty.Typed, Ty.shows, Val.toBool]
theorem show_int8 (h : int8.Typed v x) : int8.shows v x (.int8 x.toInt8) = true := by
  cases x <;> simp_all [Ty.Typed, Ty.shows, Val.toInt8]
theorem show_int16 (h : int16.Typed v x) : int16.shows v x (.int16 x.toInt16) = true := by
  cases x <;> simp_all [Ty.Typed, Ty.shows, Val.toInt16]
theorem show_int32 (h : int32.Typed v x) : int32.shows v x (.int32 x.toInt32) = true := by
  cases x <;> simp_all [Ty.Typed, Ty.shows, Val.toInt32]
theorem show_int64 (h : int64.Typed v x) : int64.shows v x (.int64 x.toInt64) = true := by
  cases x <;> simp_all [Ty.Typed, Ty.shows, Val.toInt64]
theorem show_string (h : string.Typed v x) : string.shows v x (.str (some x.toStr)) = true := by
  cases x with
  | str s => cases s <;> simp [Ty.shows, Val.toStr]
  | _ => simp only [Ty.Typed] at h
theorem show_bytes (h : bytes.Typed v x) :
    bytes.shows v x (.bytes (some x.toBytes.elems)) = true := by
  cases x with
  | bytes s => cases s <;> simp [Ty.shows, Val.toBytes, Slice.elems]
  | _ => simp only [Ty.Typed] at h

theorem show_scalars {α : Type} {t : Ty} {f : α → Val} {g : Val → α}
    (hf : ∀ y, t.Typed v y → t.shows v y (f (g y)) = true) (h : (array t).Typed v x) :
    (array t).shows v x (ofScalars f (x.toSlice g)) = true := by
  cases x with
  | arr xs =>
    cases xs with
    | none => rfl
    | some l =>
      rw [Ty.Typed] at h
      simp only [Val.toSlice, ofScalars, Option.map_some, Ty.shows, List.length_map, beq_self_eq_true, Bool.true_and,
        List.map_map]
      rw [List.all_eq_true]
      intro p hp
      rw [← List.map_id l, List.map_map, List.zip_map', List.mem_map] at hp
      obtain ⟨y, hy, rfl⟩ := hp
      exact hf y (h y hy)
  | _ => simp only [Ty.Typed] at h

theorem show_int32Array (h : (array int32).Typed v x) :
    (array int32).shows v x (ofScalars .int32 (x.toSlice Val.toInt32)) = true :=
  show_scalars (fun _ hy => show_int32 hy) h
theorem show_int64Array (h : (array int64).Typed v x) :
    (array int64).shows v x (ofScalars .int64 (x.toSlice Val.toInt64)) = true :=
  show_scalars (fun _ hy => show_int64 hy) h
theorem show_stringArray (h : (array string).Typed v x) :
    (array string).shows v x (ofScalars (fun s => .str (some s)) (x.toSlice Val.toStr)) = true :=
  show_scalars (fun _ hy => show_string hy) h

theorem show_structs {α : Type} {fs : Fields} {f : α → Val} {g : Val → α}
    (hf : ∀ y, fs.Typed v y → fs.shows v y (f (g y)) = true)
    (h : (array (struct fs)).Typed v x) :
    (array (struct fs)).shows v x (ofStructs f (x.toSliceOr g none)) = true := by
  cases x with
  | arr xs =>
    cases xs with
    | none => rfl
    | some l =>
      rw [Ty.Typed] at h
      simp only [Val.toSliceOr, ofStructs, Slice.elems, Option.getD_some, Ty.shows, List.length_map,
        beq_self_eq_true, Bool.true_and, List.map_map]
      rw [List.all_eq_true]
      intro p hp
      rw [← List.map_id l, List.map_map, List.zip_map', List.mem_map] at hp
      obtain ⟨y, hy, rfl⟩ := hp
      have h3 := h y hy
      rw [Ty.Typed] at h3
      simp only [Function.comp, id]
      exact hf y h3
  | _ => simp only [Ty.Typed] at h

end

section
variable {v : Int16} {n : String} {s u : Int16} {nf : Option Int16} {t : Ty} {rest : Fields} {x y : Val}

theorem Shows.all (hv : 0 ≤ v) (h : t.shows v (x.get n) (y.get n) = true) (hr : rest.shows v x y = true) :
    (Fields.cons n 0 none nf t rest).shows v x y = true := by
  rw [Fields.shows, if_pos (show Present v 0 none from hv), h, hr]; rfl

theorem Shows.since {α : Type} (c : α → Val) {a z : α} (hy : y.get n = c (if v ≥ s then a else z))
    (h : v ≥ s → t.shows v (x.get n) (c a) = true) (hz : t.zero (c z) = true) (hr : rest.shows v x y = true) :
    (Fields.cons n s none nf t rest).shows v x y = true := by
  rw [Fields.shows, hr, hy, Bool.and_true]
  split
  · rename_i hp; rw [if_pos (show v ≥ s from hp)]; exact h hp
  · rename_i hp; rw [if_neg (show ¬ v ≥ s from hp)]; exact hz

theorem Shows.between {α : Type} (c : α → Val) {a z : α} (hy : y.get n = c (if v ≥ s ∧ v ≤ u then a else z))
    (h : v ≥ s ∧ v ≤ u → t.shows v (x.get n) (c a) = true) (hz : t.zero (c z) = true)
    (hr : rest.shows v x y = true) :
    (Fields.cons n s (some u) nf t rest).shows v x y = true := by
  rw [Fields.shows, hr, hy, Bool.and_true]
  split
  · rename_i hp; rw [if_pos (show v ≥ s ∧ v ≤ u from hp)]; exact h hp
  · rename_i hp; rw [if_neg (show ¬ (v ≥ s ∧ v ≤ u) from hp)]; exact hz

/-- a field of the protocol that the version does not have -/
theorem Shows.absent {u : Option Int16} (h : ¬ Present v s u) (hz : t.zero (y.get n) = true)
    (hr : rest.shows v x y = true) : (Fields.cons n s u nf t rest).shows v x y = true := by
  rw [Fields.shows, if_neg h, hz, hr]; rfl

end

/-! ### The values of the client are values of the protocol -/

/-- every structure of a slice is -/
def FullAll {α : Type} (p : α → Prop) (s : Slice α) : Prop := ∀ x ∈ s.elems, p x

section
variable {nulls null : Bool} {v : Int16}

theorem valid_string {s : GoString} (h : FitsString s) : string.Valid nulls v null (.str (some s)) := h
theorem valid_bytes {s : Slice Byte} (h : FitsSlice s) : bytes.Valid nulls v null (.bytes (some s.elems)) := h

theorem valid_scalars {α : Type} {t : Ty} {f : α → Val} {s : Slice α} (h : FitsSlice s)
    (hs : ∀ x ∈ s.elems, t.Valid nulls v false (f x)) (hn : null = true ∨ s.NotNil) :
    (array t).Valid nulls v null (ofScalars f s) := by
  cases s with
  | none => exact hn.resolve_right fun h => h rfl
  | some l =>
    rw [ofScalars, Option.map_some, Ty.Valid, List.length_map]
    refine ⟨h, fun x hx => ?_⟩
    obtain ⟨y, hy, rfl⟩ := List.mem_map.1 hx
    exact hs y hy

theorem valid_int32Array {s : Slice Int32} (h : FitsSlice s) (hn : null = true ∨ s.NotNil) :
    (array int32).Valid nulls v null (ofScalars .int32 s) := valid_scalars h (fun _ _ => trivial) hn
theorem valid_int64Array {s : Slice Int64} (h : FitsSlice s) (hn : null = true ∨ s.NotNil) :
    (array int64).Valid nulls v null (ofScalars .int64 s) := valid_scalars h (fun _ _ => trivial) hn
theorem valid_stringArray {s : Slice GoString} (h : FitsStrings s) (hn : null = true ∨ s.NotNil) :
    (array string).Valid nulls v null (ofScalars (fun s => .str (some s)) s) :=
  valid_scalars h.1 (fun _ hx => valid_string (h.2 _ hx)) hn

theorem valid_structs {α : Type} {fs : Fields} {f : α → Val} {s : Slice α} {p q : α → Prop}
    (hf : ∀ x, p x → q x → fs.Valid nulls v (f x)) (h : FitsAll p s) (h' : FullAll q s) :
    (array (struct fs)).Valid nulls v null (ofStructs f s) := by
  rw [ofStructs, Ty.Valid, List.length_map]
  refine ⟨h.1, fun x hx => ?_⟩
  obtain ⟨y, hy, rfl⟩ := List.mem_map.1 hx
  rw [Ty.Valid]
  exact hf y (h.2 y hy) (h' y hy)

theorem nullable_zero (hv : 0 ≤ v) : (some (0 : Int16)).any (· ≤ v) = true := by
  simp [hv]

variable {n : String} {s u : Int16} {nf : Option Int16} {t : Ty} {rest : Fields} {x : Val}

theorem Valids.all (h : t.Valid nulls v (nf.any (· ≤ v)) (x.get n)) (hr : rest.Valid nulls v x) :
    (Fields.cons n 0 none nf t rest).Valid nulls v x := by
  rw [Fields.Valid]; exact ⟨fun _ => h, hr⟩

theorem Valids.since (h : v ≥ s → t.Valid nulls v (nf.any (· ≤ v)) (x.get n)) (hr : rest.Valid nulls v x) :
    (Fields.cons n s none nf t rest).Valid nulls v x := by
  rw [Fields.Valid]; exact ⟨h, hr⟩

theorem Valids.between (h : v ≥ s ∧ v ≤ u → t.Valid nulls v (nf.any (· ≤ v)) (x.get n))
    (hr : rest.Valid nulls v x) : (Fields.cons n s (some u) nf t rest).Valid nulls v x := by
  rw [Fields.Valid]; exact ⟨h, hr⟩

theorem Valids.absent {u : Option Int16} (h : ¬ Present v s u) (hr : rest.Valid nulls v x) :
    (Fields.cons n s u nf t rest).Valid nulls v x := by
  rw [Fields.Valid]; exact ⟨fun hp => absurd hp h, hr⟩

end

end Kafka.Protocol
