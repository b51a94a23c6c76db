import Verif.Ring.Seq
/-!
The positions of `ring/buffer.go` as they are in the code, in int32, and buffers of every size.

`Verif.Ring.Buffer` has the positions as natural numbers.  Here they are the 32 bits of an int32 (numbers from 2^31 on stand
for the negative ones), and an access outside of the storage is a panic.
-/
namespace Kafka.Ring

open Kafka

/-- ring/buffer.go:157-163 `incr`, where `size` is what `New` was given: `r.size` is `int32(size)` (ring/buffer.go:77) -/
def incr32 (size pos : Nat) : Nat :=
  let pos := (pos + 1) % 2 ^ 32
  if pos = size % 2 ^ 32 then 0 else pos

/-- These are the operations of Go on int32. -/
theorem incr32_int32 (size pos : Nat) : Int32.ofNat (incr32 size pos) =
    if Int32.ofNat pos + 1 = Int32.ofNat size then 0 else Int32.ofNat pos + 1 := by
  have e : ∀ a b : Nat, Int32.ofNat a = Int32.ofNat b ↔ a % 2 ^ 32 = b % 2 ^ 32 := by
    intro a b
    constructor
    · intro h
      have h1 : (Int32.ofNat a).toBitVec = (Int32.ofNat b).toBitVec := by rw [h]
      have h2 := congrArg BitVec.toNat h1
      simpa using h2
    · intro h
      refine Int32.toBitVec_inj.1 (BitVec.eq_of_toNat_eq ?_)
      simpa using h
  have e1 : Int32.ofNat pos + 1 = Int32.ofNat (pos + 1) := by rw [Int32.ofNat_add]; rfl
  unfold incr32
  rw [e1]
  by_cases h : Int32.ofNat (pos + 1) = Int32.ofNat size
  · rw [if_pos h, if_pos ((e _ _).1 h)]; rfl
  · rw [if_neg h, if_neg (fun hx => h ((e _ _).2 hx)), e]
    simp

/-- The index is inside of `r.data`, which has `size` bytes: it is not negative, and less than the length. -/
def inside (size pos : Nat) : Prop := pos < 2 ^ 31 ∧ pos < size

instance (size pos : Nat) : Decidable (inside size pos) := inferInstanceAs (Decidable (_ ∧ _))

/-- ring/buffer.go:88-122, 126-155: the operations of a buffer of any size; `some none` is a panic.  Only three of them compute
positions or use them as indices. -/
def step32 (size : Nat) (a : Action) (s : State) : Option (Option State) :=
  match a with
  | .w =>
    match s.wpc with
    | .put =>
      if inside size s.wpos then
        let b := s.wdata.getD s.wi 0
        let pos := incr32 size s.wpos
        let s' := { s with mem := fun j => if j = s.wpos then b else s.mem j, put := s.put ++ [b], wpos := pos }
        some (some (if incr32 size pos = s.wstart then { s' with wpc := .store } else wLoop { s' with wi := s.wi + 1 }))
      else some none
    | .reload =>
      let s' := { s with wstart := s.start, wrel := s.rel, wres := false }
      some (some (if incr32 size s.wpos = s.start then { s' with wpc := .waitCas } else wLoop { s' with wi := s.wi + 1 }))
    | _ => (wStep size s).map some
  | .r =>
    match s.rpc with
    | .get =>
      if inside size s.rpos then
        let b := s.mem s.rpos
        some (some (rLoop { s with rdst := s.rdst.set s.ri b, got := s.got ++ [b], rpos := incr32 size s.rpos,
                                   rread := s.rread + 1, ri := s.ri + 1 }))
      else some none
    | _ => (rStep size s).map some
  | a => (step size a s).map some

/-- States of a buffer of any size. -/
inductive Reach32 (size : Nat) : State → Prop where
  | init : Reach32 size init
  | step {s s' : State} (a : Action) : Reach32 size s → step32 size a s = some (some s') → Reach32 size s'

/-- Some schedule leads to a panic. -/
def Panics32 (size : Nat) : Prop := ∃ s a, Reach32 size s ∧ step32 size a s = some none

/-- Run a schedule (`none` also if it panics). -/
def run32 (size : Nat) : List Action → State → Option State
  | [], s => some s
  | a :: as, s => ((step32 size a s).bind id).bind (run32 size as)

theorem incr32_eq {size M pos : Nat} (hM : M = size % 2 ^ 32) (h2 : M ≤ 2 ^ 31) (hp : pos < M) :
    incr32 size pos = incr M pos := by
  unfold incr32 incr
  rw [← hM, Nat.mod_eq_of_lt (by omega)]

theorem incr_lt {M pos : Nat} (hp : pos < M) : incr M pos < M := by
  unfold incr; split <;> omega

/-- A buffer of a size that is `M` modulo 2^32, not more than 2^31, is as in `Verif.Ring.Buffer`. -/
theorem step32_eq {size M : Nat} (hM : M = size % 2 ^ 32) (h1 : 1 ≤ M) (h2 : M ≤ 2 ^ 31) {s : State} (h : Pos M s)
    (a : Action) : step32 size a s = (step M a s).map some := by
  have hs : M ≤ size := by rw [hM]; exact Nat.mod_le _ _
  have hin : ∀ p, p < M → inside size p := fun p hp => ⟨by omega, by omega⟩
  have hlt : ∀ k, k % M < M := fun k => Nat.mod_lt _ (by omega)
  cases a
  case w =>
    cases hw : s.wpc
    case put =>
      have hp : s.wpos < M := by rw [h.wpos (by rw [hw]; rfl)]; exact hlt _
      simp only [step32, hw, step, wStep, if_pos (hin _ hp), incr32_eq hM h2 hp, incr32_eq hM h2 (incr_lt hp), Option.map_some]
    case reload =>
      have hp : s.wpos < M := by rw [h.wpos (by rw [hw]; rfl)]; exact hlt _
      simp only [step32, hw, step, wStep, incr32_eq hM h2 hp, Option.map_some]
    all_goals simp only [step32, hw, step, wStep]
  case r =>
    cases hr : s.rpc
    case get =>
      have hp : s.rpos < M := by rw [h.rpos (by rw [hr]; rfl)]; exact hlt _
      simp only [step32, hr, step, rStep, if_pos (hin _ hp), incr32_eq hM h2 hp, Option.map_some]
    all_goals simp only [step32, hr, step, rStep]
  all_goals rfl

end Kafka.Ring
