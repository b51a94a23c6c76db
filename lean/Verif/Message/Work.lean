import Verif.Message.AllocLemmas
/-!
Steps taken while decoding.  The statement forms of Verif/Message/Steps.lean once more, each with the number of steps it
takes: one for each call of a method of `Decoder` by the `Decode` functions, or by `Int32Array`, `Int64Array` and
`StringArray`, one for each time round a loop, and one for each byte copied by `string(raw[a:b])`.  A call that fails is a
step, as is a time round a loop in which nothing is read.  What `make` does to the memory it returns is not counted: that is
`ADec` of Verif/Message/Alloc.lean.
-/
namespace Kafka
namespace WDec

/-- One call of a method of `Decoder`. -/
def read {α : Type} (m : Dec α) : ADec α := fun d => (m d, 1)

/-- as `Dec.loop`; a step for each time round -/
def loop {α : Type} (f : ADec α) : Nat → ADec (List α)
  | 0 => ADec.pure []
  | n + 1 => ADec.bind (ADec.make 1 f) fun x => ADec.bind (loop f n) fun xs => ADec.pure (x :: xs)

/-- message/decoder.go:212-230 `String`: the call and the bytes copied -/
def string : ADec GoString := fun d =>
  (Dec.string d, 1 + match Dec.string d with | .ok s _ => s.length | _ => 0)

/-- message/decoder.go:146-166, 179-199, 233-253 -/
def arrayOf {α : Type} (f : ADec α) : ADec (Slice α) :=
  ADec.bind (read Dec.arrayLength) fun n =>
    if n = -1 then ADec.pure none
    else if n < 0 then ADec.free Dec.crash
    else ADec.bind (loop f n.toNat) fun items => ADec.pure (some items)

def bool : ADec Bool := read Dec.bool
def int8 : ADec Int8 := read Dec.int8
def int16 : ADec Int16 := read Dec.int16
def int32 : ADec Int32 := read Dec.int32
def int64 : ADec Int64 := read Dec.int64
def bytes : ADec (Slice Byte) := read Dec.bytes
def int32Array : ADec (Slice Int32) := arrayOf int32
def int64Array : ADec (Slice Int64) := arrayOf int64
def stringArray : ADec (Slice GoString) := arrayOf string

/-- message/messages.gen.go:79-88 and the like, as `Dec.structs` -/
def structs {α : Type} (dec : ADec α) (old : Slice α) : ADec (Slice α) :=
  ADec.bind (read Dec.arrayLength) fun n =>
    if n ≥ 0 then ADec.bind (loop dec n.toNat) fun items => ADec.pure (some items)
    else ADec.pure old

/-- as `Dec.fieldStructs` -/
def fieldStructs {τ α : Type} (dec : ADec α) (get : τ → Slice α) (set : τ → Slice α → τ) : τ → ADec τ :=
  fun t => ADec.bind (structs dec (get t)) fun x => ADec.pure (set t x)

end WDec

namespace Erases
variable {α β τ : Type}

theorem read (m : Dec α) : Erases (WDec.read m) m := fun _ => rfl
theorem stringW : Erases WDec.string Dec.string := fun _ => rfl

theorem loopW {f : ADec α} {f' : Dec α} (h : Erases f f') : ∀ n, Erases (WDec.loop f n) (Dec.loop f' n)
  | 0 => pure []
  | n + 1 => (make 1 h).bind fun _ => (loopW h n).bind fun _ => pure _

theorem arrayOfW {f : ADec α} {f' : Dec α} (h : Erases f f') : Erases (WDec.arrayOf f) (Dec.arrayOf f') :=
  (read _).bind fun n => by
    split
    · exact pure _
    · split
      · exact free _
      · exact (loopW h _).bind fun _ => pure _

theorem structsW {f : ADec α} {f' : Dec α} (h : Erases f f') (old : Slice α) :
    Erases (WDec.structs f old) (Dec.structs f' old) :=
  (read _).bind fun n => by
    split
    · exact (loopW h _).bind fun _ => pure _
    · exact pure _

end Erases

theorem ErasesStep.structsW {α τ : Type} {m : ADec α} {m' : Dec α} {get : τ → Slice α} {set : τ → Slice α → τ} (h : Erases m m') :
    ErasesStep (WDec.fieldStructs m get set) (Dec.fieldStructs m' get set) := fun t =>
  (Erases.structsW h (get t)).bind fun _ => .pure _

/-- When `m` succeeds, two times the bytes it has used up are at least `k` more than its steps; when it does not, its steps
are at most two for each byte there is and `E`. -/
def Spends {α : Type} (m : ADec α) (k E : Nat) : Prop :=
  ∀ d, d.Valid → match m d with
    | (.ok _ d', n) => ∃ c, d' = d.skip c ∧ c ≤ d.rest.length ∧ n + k ≤ 2 * c
    | (_, n) => n ≤ 2 * d.rest.length + E

namespace Spends
variable {α β τ : Type}

theorem mono {m : ADec α} {k k' E E' : Nat} (h : Spends m k E) (hk : k' ≤ k) (hE : E ≤ E') : Spends m k' E' := fun d hd => by
  have h1 := h d hd
  rcases e : m d with ⟨r, n⟩
  rw [e] at h1
  cases r with
  | ok a d' =>
    obtain ⟨c, h1, h2, h3⟩ := h1
    exact ⟨c, h1, h2, by omega⟩
  | err e d' => exact Nat.le_trans h1 (by omega)
  | panic => exact Nat.le_trans h1 (by omega)

theorem pure (a : α) : Spends (ADec.pure a) 0 0 := fun d _ => ⟨0, by simp [Decoder.skip], Nat.zero_le _, Nat.le_refl _⟩

theorem bind {m : ADec α} {f : α → ADec β} {k l E F : Nat} (h : Spends m k E) (hf : ∀ a, Spends (f a) l F) :
    Spends (ADec.bind m f) (k + l) (max E (F - k)) := fun d hd => by
  have h1 := h d hd
  unfold ADec.bind
  rcases e : m d with ⟨r, n⟩
  rw [e] at h1
  cases r with
  | ok a d' =>
    obtain ⟨c, rfl, h2, h3⟩ := h1
    have h4 := hf a _ (Decoder.skip_valid hd h2)
    have hr : (d.skip c).rest.length = d.rest.length - c := by rw [Decoder.skip_rest hd, List.length_drop]
    dsimp only
    rcases e' : f a (d.skip c) with ⟨r', n'⟩
    rw [e'] at h4
    cases r' with
    | ok b d'' =>
      obtain ⟨c', rfl, h5, h6⟩ := h4
      refine ⟨c + c', by simp [Decoder.skip]; omega, by omega, by omega⟩
    | err e d'' => dsimp only at h4 ⊢; omega
    | panic => dsimp only at h4 ⊢; omega
  | err e d' => dsimp only at h1 ⊢; omega
  | panic => dsimp only at h1 ⊢; omega

/-- What takes a fixed number of bytes. -/
theorem fixed {m : Dec α} {w : Nat} {f : List Byte → Option α} (hw : 1 ≤ w)
    (h : ∀ d, d.Valid → m d = (fixedOut w f d.rest).lift d) : Spends (WDec.read m) (2 * w - 1) 1 := fun d hd => by
  unfold WDec.read
  rw [h d hd]
  unfold fixedOut
  by_cases hl : d.rest.length < w
  · rw [if_pos hl]
    exact Nat.le_add_left _ _
  · rw [if_neg hl]
    cases f d.rest with
    | none => exact Nat.le_add_left _ _
    | some a => exact ⟨w, rfl, by omega, by omega⟩

theorem bool : Spends WDec.bool 1 1 := fixed (by decide) bool_spec
theorem int8 : Spends WDec.int8 1 1 := fixed (by decide) int8_spec
theorem int16 : Spends WDec.int16 3 1 := fixed (by decide) int16_spec
theorem int32 : Spends WDec.int32 7 1 := fixed (by decide) int32_spec
theorem int64 : Spends WDec.int64 15 1 := fixed (by decide) int64_spec

/-- From the memory counted: what is one step, and uses up at least one byte. -/
theorem of_within {m : Dec α} {w : Nat} (hw : 1 ≤ w) (h : Within (ADec.free m) w 0) : Spends (WDec.read m) (2 * w - 1) 1 :=
  fun d hd => by
  have h1 := h d hd
  unfold ADec.free at h1
  unfold WDec.read
  cases e : m d with
  | ok a d' =>
    rw [e] at h1
    obtain ⟨c, h1, h2, h3⟩ := h1
    exact ⟨c, h1, h2, by omega⟩
  | err e d' => exact Nat.le_add_left _ _
  | panic => exact Nat.le_add_left _ _

theorem bytes : Spends WDec.bytes 7 1 := of_within (by decide) Within.bytes
theorem arrayLength : Spends (WDec.read Dec.arrayLength) 7 1 := of_within (w := 4) (by decide) (by
  have e : ADec.free Dec.arrayLength = ADec.bind (ADec.free Dec.arrayLength) ADec.pure := by
    funext d
    unfold ADec.bind ADec.free
    cases Dec.arrayLength d <;> rfl
  rw [e, Within.arrayLength]
  exact Within.int32.bind (l := 0) fun n => Within.pure _)

theorem string : Spends WDec.string 3 1 := fun d hd => by
  have h1 := Within.string d hd
  unfold ADec.string at h1
  unfold WDec.string
  cases e : Dec.string d with
  | ok a d' =>
    rw [e] at h1
    obtain ⟨c, h1, h2, h3⟩ := h1
    dsimp only at h3
    exact ⟨c, h1, h2, by dsimp only; omega⟩
  | err e d' => exact Nat.le_add_left _ _
  | panic => exact Nat.le_add_left _ _

theorem round {f : ADec α} (h : Spends f 1 1) : Spends (ADec.make 1 f) 0 2 := fun d hd => by
  have h1 := h d hd
  unfold ADec.make
  rcases e : f d with ⟨r, n⟩
  rw [e] at h1
  cases r with
  | ok a d' =>
    obtain ⟨c, h1, h2, h3⟩ := h1
    exact ⟨c, h1, h2, by dsimp only; omega⟩
  | err e d' => dsimp only at h1 ⊢; omega
  | panic => dsimp only at h1 ⊢; omega

theorem loop {f : ADec α} (h : Spends f 1 1) : ∀ n, Spends (WDec.loop f n) 0 2
  | 0 => (pure []).mono (Nat.le_refl _) (Nat.zero_le _)
  | n + 1 => ((round h).bind fun _ => (loop h n).bind fun _ => pure _).mono (by omega) (by decide)

theorem items {f : ADec α} (h : Spends f 1 1) (n : Nat) :
    Spends (ADec.bind (WDec.loop f n) fun items => ADec.pure (some items)) 0 2 :=
  ((loop h n).bind fun _ => pure _).mono (by omega) (by decide)

theorem arrayOf {f : ADec α} (h : Spends f 1 1) : Spends (WDec.arrayOf f) 7 1 := by
  refine (arrayLength.bind (l := 0) (F := 2) fun n => ?_).mono (by omega) (by decide)
  split
  · exact (pure _).mono (Nat.le_refl _) (by decide)
  · split
    · exact fun d hd => Nat.zero_le _
    · exact items h _

theorem structsOf {f : ADec α} (h : Spends f 1 1) (old : Slice α) : Spends (WDec.structs f old) 7 1 := by
  refine (arrayLength.bind (l := 0) (F := 2) fun n => ?_).mono (by omega) (by decide)
  split
  · exact items h _
  · exact (pure _).mono (Nat.le_refl _) (by decide)

theorem int32Array : Spends WDec.int32Array 7 1 := arrayOf (int32.mono (by omega) (Nat.le_refl _))
theorem int64Array : Spends WDec.int64Array 7 1 := arrayOf (int64.mono (by omega) (Nat.le_refl _))
theorem stringArray : Spends WDec.stringArray 7 1 := arrayOf (string.mono (by omega) (Nat.le_refl _))

end Spends

/-- The same for statements. -/
def SpendsStep {τ : Type} (s : τ → ADec τ) (k : Nat) : Prop := ∀ t, Spends (s t) k 1

namespace SpendsStep
variable {α τ : Type}

theorem nop : SpendsStep (ADec.nop : τ → ADec τ) 0 := fun _ => (Spends.pure _).mono (Nat.le_refl _) (by decide)
theorem andThen {s r : τ → ADec τ} {k l : Nat} (h : SpendsStep s k) (h' : SpendsStep r l) :
    SpendsStep (ADec.andThen s r) (k + l) := fun t => ((h t).bind fun a => h' a).mono (Nat.le_refl _) (by omega)
theorem field {m : ADec α} {set : τ → α → τ} {k : Nat} (h : Spends m k 1) : SpendsStep (ADec.field m set) k := fun _ =>
  (h.bind (l := 0) fun _ => (Spends.pure _)).mono (Nat.le_refl _) (by omega)
theorem structs {m : ADec α} {get : τ → Slice α} {set : τ → Slice α → τ} (h : Spends m 1 1) :
    SpendsStep (WDec.fieldStructs m get set) 7 := fun _ =>
  ((h.structsOf _).bind (l := 0) fun _ => (Spends.pure _)).mono (Nat.le_refl _) (by omega)
theorem onlyIf {c : Prop} [Decidable c] {s : τ → ADec τ} {k : Nat} (h : c → SpendsStep s k) :
    SpendsStep (ADec.onlyIf c s) 0 := fun t => by
  unfold ADec.onlyIf
  split
  · exact (h ‹_› t).mono (Nat.zero_le _) (Nat.le_refl _)
  · exact (Spends.pure _).mono (Nat.le_refl _) (Nat.zero_le _)
theorem present {c : Prop} [Decidable c] {s : τ → ADec τ} {k : Nat} (hc : c) (h : SpendsStep s k) :
    SpendsStep (ADec.onlyIf c s) k := fun t => by
  unfold ADec.onlyIf
  rw [if_pos hc]
  exact h t

end SpendsStep
end Kafka
