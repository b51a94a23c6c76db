import Verif.Message.DecLemmas
/-!
Lemmas for the length-prefixed decoder methods.
-/
namespace Kafka

theorem goSlice_eq {d : Decoder} (h : d.Valid) {n : Nat} (hn : n ≤ d.rest.length) {i : Int}
    (hi : i = n) : goSlice d.raw d.offset (wrap64 (d.offset + i)) = some (d.rest.take n) := by
  subst hi
  have := h.off_nonneg; have := h.off_le; have := h.len_le; have := h.small
  have h3 := Decoder.rest_length h
  rw [wrap64_id (by omega) (by omega)]
  unfold goSlice
  rw [if_pos (by omega)]
  have : (d.offset + (n : Int) - d.offset).toNat = n := by omega
  rw [this]
  congr 1
  unfold Decoder.rest
  rw [List.drop_take, List.take_take]
  congr 1
  omega

theorem goSlice_neg {d : Decoder} (h : d.Valid) {i : Int} (hi : i < 0) (hi2 : -(2 ^ 63) ≤ i) :
    goSlice d.raw d.offset (wrap64 (d.offset + i)) = none := by
  have := h.off_nonneg; have := h.off_le; have := h.len_le; have := h.small
  rw [wrap64_id (by omega) (by omega)]
  unfold goSlice
  rw [if_neg (by omega)]

def takeOut (n : Int) (bs : List Byte) : POut (List Byte) :=
  if n < 0 then .panic
  else if (bs.length : Int) < n then .err .shortBuffer 0
  else .ok (bs.take n.toNat) n.toNat

theorem takeBytes_spec {n : Int} (hn : -(2 ^ 63) ≤ n) (d : Decoder) (h : d.Valid) :
    Dec.takeBytes n d = (takeOut n d.rest).lift d := by
  unfold Dec.takeBytes takeOut
  by_cases h0 : n < 0
  · rw [if_pos h0, bind_ok (remains_ok h (by omega)), bind_panic (expr_none (goSlice_neg h h0 hn))]
    rfl
  · rw [if_neg h0]
    by_cases hl : (d.rest.length : Int) < n
    · rw [if_pos hl, bind_err (remains_err h hl)]; simp [POut.lift]
    · rw [if_neg hl, bind_ok (remains_ok h (by omega)),
        bind_ok (expr_some (goSlice_eq h (n := n.toNat) (by omega) (by omega))),
        bind_ok (advance_eq h n.toNat (by omega) (by omega))]
      rfl

theorem tame_takeBytes {n : Int} (hn : -(2 ^ 63) ≤ n) : Tame (Dec.takeBytes n) := by
  refine ⟨takeOut n, ?_, takeBytes_spec hn, ?_⟩
  · intro bs
    unfold takeOut
    split
    · simp [POut.used]
    · split <;> simp only [POut.used] <;> omega
  · intro bs e k h
    unfold takeOut at h
    split at h
    · simp at h
    · split at h <;> simp_all

theorem calm_takeBytes {n : Int} (hn : 0 ≤ n) : Calm (Dec.takeBytes n) (fun _ => True) := by
  intro d hd _
  rw [takeBytes_spec (by omega) d hd]
  refine ⟨?_, by simp⟩
  unfold takeOut
  rw [if_neg (by omega)]
  split <;> simp [POut.lift]

theorem reads_takeBytes (bs : List Byte) {n : Int} (hn : n = bs.length) (hl : bs.length < 2 ^ 62) :
    Reads (Dec.takeBytes n) bs bs := by
  subst hn
  constructor
  · intro d hd tail ht
    rw [takeBytes_spec (by omega) d hd, ht]
    unfold takeOut
    rw [if_neg (by omega), if_neg (by simp; omega)]
    simp [POut.lift]
  · intro d hd hp hne
    have : d.rest.length < bs.length := by
      have h1 := hp.length_le
      rcases Nat.lt_or_ge d.rest.length bs.length with h | h
      · exact h
      · exact absurd (hp.eq_of_length (by omega)) hne
    rw [takeBytes_spec (by omega) d hd]
    unfold takeOut
    rw [if_neg (by omega), if_pos (by omega)]
    exact ⟨_, rfl⟩

theorem int16_bounds (n : Int16) : -(2 ^ 15) ≤ n.toInt ∧ n.toInt < 2 ^ 15 :=
  ⟨n.le_toInt, n.toInt_lt⟩
theorem int32_bounds (n : Int32) : -(2 ^ 31) ≤ n.toInt ∧ n.toInt < 2 ^ 31 :=
  ⟨n.le_toInt, n.toInt_lt⟩
theorem int64_bounds (n : Int64) : -(2 ^ 63) ≤ n.toInt ∧ n.toInt < 2 ^ 63 :=
  ⟨n.le_toInt, n.toInt_lt⟩

/-! ### String -/

theorem tame_string : Tame Dec.string :=
  tame_int16.bind fun n =>
    Tame.ite (Tame.pure _) (tame_takeBytes (by have := int16_bounds n; omega))

theorem calm_string : Calm Dec.string (fun _ => True) :=
  Calm.bind tame_int16 calm_int16 fun _ hn =>
    Calm.ite (fun _ => Calm.pure trivial) (fun _ => calm_takeBytes hn)

theorem ofNat_toInt16 {n : Nat} (h : n < 2 ^ 15) : (Int16.ofNat n).toInt = n :=
  Int16.toInt_ofNat_of_lt h
theorem ofNat_toInt32 {n : Nat} (h : n < 2 ^ 31) : (Int32.ofNat n).toInt = n :=
  Int32.toInt_ofNat_of_lt h
theorem ofNat_toInt64 {n : Nat} (h : n < 2 ^ 63) : (Int64.ofNat n).toInt = n :=
  Int64.toInt_ofNat_of_lt h

theorem reads_string {s : GoString} (h : FitsString s) : Reads Dec.string (Wire.string s) s := by
  unfold FitsString at h
  refine (reads_int16 _).bind ?_
  have h1 := ofNat_toInt16 h
  have : ¬ Int16.ofNat s.length = -1 := by
    intro hc
    rw [hc] at h1
    have : (-1 : Int16).toInt = -1 := rfl
    omega
  rw [if_neg this]
  exact reads_takeBytes s h1 (by omega)

/-! ### Bytes -/

theorem tame_bytes : Tame Dec.bytes :=
  tame_int32.bind fun n =>
    (tame_takeBytes (by have := int32_bounds n; omega)).bind fun _ => Tame.pure _

theorem calm_bytes : Calm Dec.bytes (fun _ => True) :=
  Calm.bind tame_int32 calm_int32 fun n hn =>
    Calm.bind (tame_takeBytes (by have := int32_bounds n; omega)) (calm_takeBytes hn)
      fun _ _ => Calm.pure trivial

theorem reads_bytes {s : Slice Byte} (h : FitsSlice s) :
    Reads Dec.bytes (Wire.bytes s) s.nonNil := by
  unfold FitsSlice at h
  refine (reads_int32 _).bind (Reads.map (reads_takeBytes s.elems (ofNat_toInt32 h) ?_))
  unfold Slice.len at h; omega

/-! ### Arrays -/

theorem tame_arrayLength : Tame Dec.arrayLength := tame_int32.bind fun _ => Tame.pure _

theorem calm_arrayLength : Calm Dec.arrayLength (fun n => 0 ≤ n) :=
  Calm.bind tame_int32 calm_int32 fun _ hn => Calm.pure hn

theorem reads_arrayLength {n : Nat} (h : n < 2 ^ 31) :
    Reads Dec.arrayLength (Wire.int32 (Int32.ofNat n)) (n : Int) :=
  Reads.congr (Reads.map (g := Int32.toInt) (reads_int32 (Int32.ofNat n))) rfl (ofNat_toInt32 h)

theorem tame_loop {α : Type} {f : Dec α} (hf : Tame f) (n : Nat) : Tame (Dec.loop f n) := by
  induction n with
  | zero => exact Tame.pure _
  | succ n ih => exact hf.bind fun _ => ih.bind fun _ => Tame.pure _

theorem calm_loop {α : Type} {f : Dec α} (ht : Tame f) (hf : Calm f (fun _ => True)) (n : Nat) :
    Calm (Dec.loop f n) (fun _ => True) := by
  induction n with
  | zero => exact Calm.pure trivial
  | succ n ih =>
    exact Calm.bind ht hf fun _ _ => Calm.bind (tame_loop ht n) ih fun _ _ => Calm.pure trivial

theorem reads_loop {α : Type} {f : Dec α} {w : α → List Byte} {g : α → α} (l : List α)
    (h : ∀ x ∈ l, Reads f (w x) (g x)) :
    Reads (Dec.loop f l.length) (l.flatMap w) (l.map g) := by
  induction l with
  | nil => exact Reads.pure _
  | cons x l ih =>
    exact (h x (by simp)).bind (Reads.map (ih fun y hy => h y (by simp [hy])))

theorem tame_crash {α : Type} : Tame (Dec.crash : Dec α) :=
  ⟨fun _ => .panic, by simp [POut.used], fun _ _ => rfl, by simp⟩

theorem tame_arrayOf {α : Type} {f : Dec α} (hf : Tame f) : Tame (Dec.arrayOf f) :=
  tame_arrayLength.bind fun _ => Tame.ite (Tame.pure _)
    (Tame.ite tame_crash ((tame_loop hf _).bind fun _ => Tame.pure _))

theorem calm_arrayOf {α : Type} {f : Dec α} (ht : Tame f) (hf : Calm f (fun _ => True)) :
    Calm (Dec.arrayOf f) (fun _ => True) :=
  Calm.bind tame_arrayLength calm_arrayLength fun n hn =>
    Calm.ite (fun _ => Calm.pure trivial) fun _ =>
    Calm.ite (fun h => absurd h (by omega)) fun _ =>
    Calm.bind (tame_loop ht _) (calm_loop ht hf _) fun _ _ => Calm.pure trivial

theorem reads_arrayOf {α : Type} {f : Dec α} {w : α → List Byte} {s : Slice α}
    (hs : FitsSlice s) (h : ∀ x ∈ s.elems, Reads f (w x) x) :
    Reads (Dec.arrayOf f) (Wire.nullableArray w s) s := by
  cases s with
  | none =>
    have h1 := (reads_int32 (-1)).map (g := fun x => x.toInt)
    exact (h1.bind (k := fun n => if n = -1 then _ else _)
      (by rw [if_pos (by rfl)]; exact Reads.pure none)).congr (by simp [Wire.nullableArray]) rfl
  | some l =>
    have hl : l.length < 2 ^ 31 := hs
    refine (reads_arrayLength hl).bind ?_
    rw [if_neg (by omega), if_neg (by omega)]
    have := reads_loop l h (g := id)
    rw [List.map_id] at this
    exact Reads.map this

theorem tame_structs {α : Type} {f : Dec α} (hf : Tame f) (old : Slice α) :
    Tame (Dec.structs f old) :=
  tame_arrayLength.bind fun _ => Tame.ite ((tame_loop hf _).bind fun _ => Tame.pure _)
    (Tame.pure _)

theorem calm_structs {α : Type} {f : Dec α} (ht : Tame f) (hf : Calm f (fun _ => True))
    (old : Slice α) : Calm (Dec.structs f old) (fun _ => True) :=
  Calm.bind tame_arrayLength calm_arrayLength fun _ _ =>
    Calm.ite (fun _ => Calm.bind (tame_loop ht _) (calm_loop ht hf _)
      fun _ _ => Calm.pure trivial) fun _ => Calm.pure trivial

theorem reads_structs {α : Type} {f : Dec α} {w : α → List Byte} {g : α → α} {p : α → Prop}
    {s : Slice α} (old : Slice α) (hs : FitsAll p s) (h : ∀ x, p x → Reads f (w x) (g x)) :
    Reads (Dec.structs f old) (Wire.array w s) (some (s.elems.map g)) := by
  refine (reads_arrayLength hs.1).bind ?_
  rw [if_pos (by omega)]
  exact Reads.map (reads_loop s.elems fun x hx => h x (hs.2 x hx))

theorem tame_int32Array : Tame Dec.int32Array := tame_arrayOf tame_int32
theorem tame_int64Array : Tame Dec.int64Array := tame_arrayOf tame_int64
theorem tame_stringArray : Tame Dec.stringArray := tame_arrayOf tame_string
theorem calm_int32Array : Calm Dec.int32Array (fun _ => True) :=
  calm_arrayOf tame_int32 (calm_int32.weaken fun _ _ => trivial)
theorem calm_int64Array : Calm Dec.int64Array (fun _ => True) :=
  calm_arrayOf tame_int64 calm_int64
theorem calm_stringArray : Calm Dec.stringArray (fun _ => True) :=
  calm_arrayOf tame_string calm_string
theorem reads_int32Array {s : Slice Int32} (h : FitsSlice s) :
    Reads Dec.int32Array (Wire.int32Array s) s := reads_arrayOf h fun x _ => reads_int32 x
theorem reads_int64Array {s : Slice Int64} (h : FitsSlice s) :
    Reads Dec.int64Array (Wire.int64Array s) s := reads_arrayOf h fun x _ => reads_int64 x
theorem reads_stringArray {s : Slice GoString} (h : FitsStrings s) :
    Reads Dec.stringArray (Wire.stringArray s) s :=
  reads_arrayOf h.1 fun x hx => reads_string (h.2 x hx)

theorem reads_nullableString {s : GoString} (h : FitsString s) :
    Reads Dec.nullableString (Wire.nullableString (some s)) (some s) := Reads.map (reads_string h)

end Kafka
