import Verif.Message.Alloc
import Verif.Message.StepLemmas
/-!
Lemmas about the memory requested while decoding.
-/
namespace Kafka

/-- Counting does not change what is done. -/
def Erases {α : Type} (m : ADec α) (m' : Dec α) : Prop := ∀ d, (m d).1 = m' d

namespace Erases
variable {α β τ : Type}

theorem free (m : Dec α) : Erases (ADec.free m) m := fun _ => rfl
theorem string : Erases ADec.string Dec.string := fun _ => rfl

theorem bind {m : ADec α} {m' : Dec α} {f : α → ADec β} {f' : α → Dec β} (h : Erases m m')
    (hf : ∀ a, Erases (f a) (f' a)) : Erases (ADec.bind m f) (m' >>= f') := fun d => by
  show _ = Dec.bind m' f' d
  have := h d
  unfold ADec.bind Dec.bind
  rw [← this]
  rcases m d with ⟨_ | _ | _, n⟩
  · exact hf _ _
  · rfl
  · rfl

theorem pure (a : α) : Erases (ADec.pure a) (Pure.pure a) := fun _ => rfl

theorem make {m : ADec α} {m' : Dec α} (n : Nat) (h : Erases m m') : Erases (ADec.make n m) m' := fun d => h d

theorem loop {f : ADec α} {f' : Dec α} (h : Erases f f') : ∀ n, Erases (ADec.loop f n) (Dec.loop f' n)
  | 0 => pure []
  | n + 1 => h.bind fun _ => (loop h n).bind fun _ => pure _

theorem arrayOf {f : ADec α} {f' : Dec α} (h : Erases f f') : Erases (ADec.arrayOf f) (Dec.arrayOf f') :=
  (free _).bind fun n => by
    split
    · exact pure _
    · split
      · exact free _
      · exact make _ ((loop h _).bind fun _ => pure _)

theorem structs {f : ADec α} {f' : Dec α} (h : Erases f f') (old : Slice α) :
    Erases (ADec.structs f old) (Dec.structs f' old) :=
  (free _).bind fun n => by
    split
    · exact make _ ((loop h _).bind fun _ => pure _)
    · exact pure _

end Erases

/-- The same for statements. -/
def ErasesStep {τ : Type} (s : τ → ADec τ) (s' : τ → Dec τ) : Prop := ∀ t, Erases (s t) (s' t)

namespace ErasesStep
variable {α τ : Type}

theorem nop : ErasesStep (ADec.nop : τ → ADec τ) Dec.nop := fun _ => .pure _
theorem andThen {s r : τ → ADec τ} {s' r' : τ → Dec τ} (h : ErasesStep s s') (h' : ErasesStep r r') :
    ErasesStep (ADec.andThen s r) (Dec.andThen s' r') := fun t => (h t).bind h'
theorem field {m : ADec α} {m' : Dec α} {set : τ → α → τ} (h : Erases m m') :
    ErasesStep (ADec.field m set) (Dec.field m' set) := fun _ => h.bind fun _ => .pure _
theorem structs {m : ADec α} {m' : Dec α} {get : τ → Slice α} {set : τ → Slice α → τ} (h : Erases m m') :
    ErasesStep (ADec.fieldStructs m get set) (Dec.fieldStructs m' get set) := fun t =>
  (Erases.structs h (get t)).bind fun _ => .pure _
theorem onlyIf {c : Prop} [Decidable c] {s : τ → ADec τ} {s' : τ → Dec τ} (h : ErasesStep s s') :
    ErasesStep (ADec.onlyIf c s) (Dec.onlyIf c s') := fun t => by
  unfold ADec.onlyIf Dec.onlyIf
  split
  · exact h t
  · exact .pure _

end ErasesStep

/-- The longest array. -/
def maxLen : Nat := 2 ^ 31 - 1

/-- When `m` succeeds it has used up at least `k` bytes more than it has asked for elements; when it does not it has asked
for no more elements than there are bytes, and `D` longest arrays. -/
def Within {α : Type} (m : ADec α) (k D : Nat) : Prop :=
  ∀ d, d.Valid → match m d with
    | (.ok _ d', n) => ∃ c, d' = d.skip c ∧ c ≤ d.rest.length ∧ n + k ≤ c
    | (_, n) => n ≤ d.rest.length + D * maxLen

namespace Within
variable {α β τ : Type}

theorem mono {m : ADec α} {k k' D D' : Nat} (h : Within m k D) (hk : k' ≤ k) (hD : D ≤ D') : Within m k' D' := fun d hd => by
  have h1 := h d hd
  have hm := Nat.mul_le_mul_right maxLen hD
  rcases e : m d with ⟨r, n⟩
  rw [e] at h1
  cases r with
  | ok a d' =>
    obtain ⟨c, h1, h2, h3⟩ := h1
    exact ⟨c, h1, h2, by omega⟩
  | err e d' => exact Nat.le_trans h1 (by omega)
  | panic => exact Nat.le_trans h1 (by omega)

theorem pure (a : α) : Within (ADec.pure a) 0 0 := fun d _ => ⟨0, by simp [Decoder.skip], Nat.zero_le _, Nat.le_refl _⟩

theorem bind {m : ADec α} {f : α → ADec β} {k l D : Nat} (h : Within m k D) (hf : ∀ a, Within (f a) l D) :
    Within (ADec.bind m f) (k + l) D := fun d hd => by
  have h1 := h d hd
  unfold ADec.bind
  rcases e : m d with ⟨r, n⟩
  rw [e] at h1
  cases r with
  | ok a d' =>
    obtain ⟨c, rfl, h2, h3⟩ := h1
    have h4 := hf a _ (Decoder.skip_valid hd h2)
    have hr : (d.skip c).rest.length = d.rest.length - c := by rw [Decoder.skip_rest hd, List.length_drop]
    dsimp only
    rcases e' : f a (d.skip c) with ⟨r', n'⟩
    rw [e'] at h4
    cases r' with
    | ok b d'' =>
      obtain ⟨c', rfl, h5, h6⟩ := h4
      refine ⟨c + c', by simp [Decoder.skip]; omega, by omega, by omega⟩
    | err e d'' => dsimp only at h4 ⊢; omega
    | panic => dsimp only at h4 ⊢; omega
  | err e d' => exact h1
  | panic => exact h1

theorem free {m : Dec α} (h : Tame m) : Within (ADec.free m) 0 0 := fun d hd => by
  obtain ⟨f, h1, h2, _⟩ := h
  unfold ADec.free
  rw [h2 d hd]
  have := h1 d.rest
  cases e : f d.rest with
  | ok a n => rw [e] at this; exact ⟨n, rfl, this, by omega⟩
  | err e n => exact Nat.zero_le _
  | panic => exact Nat.zero_le _

/-- What takes a fixed number of bytes. -/
theorem fixed {m : Dec α} {w : Nat} {f : List Byte → Option α} (h : ∀ d, d.Valid → m d = (fixedOut w f d.rest).lift d) :
    Within (ADec.free m) w 0 := fun d hd => by
  unfold ADec.free
  rw [h d hd]
  unfold fixedOut
  by_cases hl : d.rest.length < w
  · rw [if_pos hl]
    exact Nat.zero_le _
  · rw [if_neg hl]
    cases f d.rest with
    | none => exact Nat.zero_le _
    | some a => exact ⟨w, rfl, by omega, by omega⟩

theorem bool : Within ADec.bool 1 0 := fixed bool_spec
theorem int8 : Within ADec.int8 1 0 := fixed int8_spec
theorem int16 : Within ADec.int16 2 0 := fixed int16_spec
theorem int32 : Within ADec.int32 4 0 := fixed int32_spec
theorem int64 : Within ADec.int64 8 0 := fixed int64_spec

theorem bytes : Within ADec.bytes 4 0 := by
  have e : ADec.bytes = ADec.bind ADec.int32 fun n => ADec.free (Dec.takeBytes n.toInt >>= fun v => Pure.pure (some v)) := by
    funext d
    show (Dec.bind Dec.int32 _ d, 0) = _
    unfold ADec.bind ADec.int32 ADec.free Dec.bind
    cases Dec.int32 d <;> rfl
  rw [e]
  exact int32.bind (l := 0) fun n => free ((tame_takeBytes (by have := int32_bounds n; omega)).bind fun _ => Tame.pure _)

/-- A copy of the bytes that are there. -/
def copied (n : Int) : ADec (List Byte) := fun d =>
  (Dec.takeBytes n d, match Dec.takeBytes n d with | .ok s _ => s.length | _ => 0)

theorem copy {n : Int} (hn : -(2 ^ 63) ≤ n) : Within (copied n) 0 0 := fun d hd => by
  unfold copied
  rw [takeBytes_spec hn d hd]
  unfold takeOut
  by_cases h0 : n < 0
  · rw [if_pos h0]; exact Nat.zero_le _
  · rw [if_neg h0]
    by_cases h1 : (d.rest.length : Int) < n
    · rw [if_pos h1]; exact Nat.zero_le _
    · rw [if_neg h1]
      exact ⟨n.toNat, rfl, by omega, by show (d.rest.take n.toNat).length + 0 ≤ _; simp; omega⟩

theorem string : Within ADec.string 2 0 := by
  have e : ADec.string = ADec.bind ADec.int16 fun n => if n = -1 then ADec.pure [] else copied n.toInt := by
    funext d
    have e : ADec.string d = (Dec.string d, match Dec.string d with | .ok s _ => s.length | _ => 0) := rfl
    have e' : Dec.string d = Dec.bind Dec.int16 (fun n => if n = -1 then Dec.pure [] else Dec.takeBytes n.toInt) d := rfl
    rw [e, e']
    unfold ADec.bind ADec.int16 ADec.free Dec.bind
    cases Dec.int16 d with
    | ok n d' =>
      dsimp only
      by_cases h : n = -1
      · simp only [if_pos h]; rfl
      · simp only [if_neg h, copied, Nat.zero_add]
        rfl
    | err e d' => rfl
    | panic => rfl
  rw [e]
  refine int16.bind (l := 0) fun n => ?_
  split
  · exact pure _
  · exact copy (by have := int16_bounds n; omega)

theorem loop {f : ADec α} {D : Nat} (h : Within f 1 D) : ∀ n, Within (ADec.loop f n) n D
  | 0 => (pure []).mono (Nat.le_refl _) (Nat.zero_le _)
  | n + 1 => (h.bind fun _ => (loop h n).bind (l := 0) fun _ => (pure _).mono (Nat.le_refl _) (Nat.zero_le _)).mono
      (by omega) (Nat.le_refl _)

theorem make {m : ADec α} {n D : Nat} (h : Within m n D) (hn : n ≤ maxLen) : Within (ADec.make n m) 0 (D + 1) := fun d hd => by
  have h1 := h d hd
  unfold ADec.make
  rcases e : m d with ⟨r, n'⟩
  rw [e] at h1
  cases r with
  | ok a d' =>
    obtain ⟨c, h1, h2, h3⟩ := h1
    exact ⟨c, h1, h2, by dsimp only; omega⟩
  | err e d' => dsimp only at h1 ⊢; rw [Nat.succ_mul]; omega
  | panic => dsimp only at h1 ⊢; rw [Nat.succ_mul]; omega

theorem arrayLength (f : Int → ADec β) :
    ADec.bind (ADec.free Dec.arrayLength) f = ADec.bind ADec.int32 fun n => f n.toInt := by
  funext d
  have e : ADec.free Dec.arrayLength d = ((Dec.bind Dec.int32 fun n => Dec.pure n.toInt) d, 0) := rfl
  unfold ADec.bind
  rw [e]
  unfold ADec.int32 ADec.free Dec.bind
  cases Dec.int32 d <;> rfl

theorem items {f : ADec α} {D : Nat} (h : Within f 1 D) (n : Int32) :
    Within (ADec.make n.toInt.toNat (ADec.bind (ADec.loop f n.toInt.toNat) fun items => ADec.pure (some items))) 0 (D + 1) :=
  make (((loop h _).bind (l := 0) fun _ => (pure _).mono (Nat.le_refl _) (Nat.zero_le _)).mono (by omega) (Nat.le_refl _))
    (by have := int32_bounds n; unfold maxLen; omega)

theorem arrayOf {f : ADec α} {D : Nat} (h : Within f 1 D) : Within (ADec.arrayOf f) 4 (D + 1) := by
  unfold ADec.arrayOf
  rw [arrayLength]
  refine (int32.mono (Nat.le_refl _) (Nat.zero_le _)).bind (l := 0) fun n => ?_
  split
  · exact (pure _).mono (Nat.le_refl _) (Nat.zero_le _)
  · split
    · exact fun d hd => Nat.zero_le _
    · exact items h n

theorem structsOf {f : ADec α} {D : Nat} (h : Within f 1 D) (old : Slice α) : Within (ADec.structs f old) 4 (D + 1) := by
  unfold ADec.structs
  rw [arrayLength]
  refine (int32.mono (Nat.le_refl _) (Nat.zero_le _)).bind (l := 0) fun n => ?_
  split
  · exact items h n
  · exact (pure _).mono (Nat.le_refl _) (Nat.zero_le _)

theorem int32Array : Within ADec.int32Array 4 1 := arrayOf (int32.mono (by omega) (Nat.le_refl _))
theorem int64Array : Within ADec.int64Array 4 1 := arrayOf (int64.mono (by omega) (Nat.le_refl _))
theorem stringArray : Within ADec.stringArray 4 1 := arrayOf (string.mono (by omega) (Nat.le_refl _))

end Within

/-- The same for statements. -/
def WithinStep {τ : Type} (s : τ → ADec τ) (k D : Nat) : Prop := ∀ t, Within (s t) k D

namespace WithinStep
variable {α τ : Type}

theorem nop : WithinStep (ADec.nop : τ → ADec τ) 0 0 := fun _ => .pure _
theorem andThen {s r : τ → ADec τ} {k l D E : Nat} (h : WithinStep s k D) (h' : WithinStep r l E) :
    WithinStep (ADec.andThen s r) (k + l) (max D E) := fun t =>
  ((h t).mono (Nat.le_refl _) (Nat.le_max_left _ _)).bind fun a => (h' a).mono (Nat.le_refl _) (Nat.le_max_right _ _)
theorem field {m : ADec α} {set : τ → α → τ} {k D : Nat} (h : Within m k D) : WithinStep (ADec.field m set) k D := fun _ =>
  h.bind (l := 0) fun _ => (Within.pure _).mono (Nat.le_refl _) (Nat.zero_le _)
theorem structs {m : ADec α} {get : τ → Slice α} {set : τ → Slice α → τ} {D : Nat} (h : Within m 1 D) :
    WithinStep (ADec.fieldStructs m get set) 4 (D + 1) := fun _ =>
  (h.structsOf _).bind (l := 0) fun _ => (Within.pure _).mono (Nat.le_refl _) (Nat.zero_le _)
theorem onlyIf {c : Prop} [Decidable c] {s : τ → ADec τ} {k D : Nat} (h : c → WithinStep s k D) :
    WithinStep (ADec.onlyIf c s) 0 D := fun t => by
  unfold ADec.onlyIf
  split
  · exact (h ‹_› t).mono (Nat.zero_le _) (Nat.le_refl _)
  · exact (Within.pure _).mono (Nat.le_refl _) (Nat.zero_le _)
theorem present {c : Prop} [Decidable c] {s : τ → ADec τ} {k D : Nat} (hc : c) (h : WithinStep s k D) :
    WithinStep (ADec.onlyIf c s) k D := fun t => by
  unfold ADec.onlyIf
  rw [if_pos hc]
  exact h t

end WithinStep
end Kafka
