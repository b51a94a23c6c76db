import Verif.Ring.Int32
import Verif.Props.Ring
/-!
Property C84: ring buffers of every size, with the positions in int32 as in the code.
-/
set_option linter.unusedSimpArgs false

namespace Kafka.Props

open Kafka Kafka.Ring

/-- The full claim, of a buffer made by `New(size)`: nothing panics, however many bytes have passed through it, and it takes
`size - 2` bytes before the writer waits for the reader (as much as C26 says). -/
def C84_statement (size : Nat) : Prop :=
  ¬Panics32 size ∧ ∀ data n, n + 2 ≤ size → n ≤ data.length →
    ∃ k s, run32 size (.callW data n :: List.replicate k .w) init = some s ∧ s.wpc = .idle

/-- Up to 2^31 the buffer of the code, in int32, has the executions of the buffer in natural numbers, so that C25 to C31 are
about it; for larger sizes it is so with the remainder modulo 2^32, if that is not 0 and not more than 2^31. -/
theorem C84_model {size M : Nat} (hM : M = size % 2 ^ 32) (h1 : 1 ≤ M) (h2 : M ≤ 2 ^ 31) (s : State) :
    Reach32 size s ↔ Ring.Reach M Ring.Any s := by
  constructor
  · intro h
    induction h with
    | init => exact .init
    | @step s s' a _ hs ih =>
      rw [step32_eq hM h1 h2 (ih.pos (by omega))] at hs
      obtain ⟨t, h3, h4⟩ := Option.map_eq_some_iff.1 hs
      cases h4
      exact ih.step a trivial h3
  · intro h
    induction h with
    | init => exact .init
    | step a hr _ hs ih => exact ih.step a (by rw [step32_eq hM h1 h2 (hr.pos (by omega)), hs]; rfl)

theorem run32_eq {size M : Nat} (hM : M = size % 2 ^ 32) (h1 : 1 ≤ M) (h2 : M ≤ 2 ^ 31) : ∀ (as : List Action) {s : State},
    Ring.Reach M Ring.Any s → run32 size as s = Ring.run M as s
  | [], _, _ => rfl
  | a :: as, s, h => by
    rw [run32, Ring.run, step32_eq hM h1 h2 (h.pos (by omega))]
    cases hs : Ring.step M a s with
    | none => rfl
    | some s' => exact run32_eq hM h1 h2 as (h.step a trivial hs)

/-- At these sizes nothing panics. -/
theorem C84_noPanic {size M : Nat} (hM : M = size % 2 ^ 32) (h1 : 1 ≤ M) (h2 : M ≤ 2 ^ 31) : ¬Panics32 size := by
  rintro ⟨s, a, hs, ha⟩
  rw [step32_eq hM h1 h2 (((C84_model hM h1 h2 s).1 hs).pos (by omega))] at ha
  cases hx : Ring.step M a s <;> rw [hx] at ha <;> simp at ha

/-! ### Panics -/

/-- One byte after the other is written and read: `k` bytes. -/
structure Passed (size k : Nat) (s : State) : Prop where
  reach : Reach32 size s
  wpc : s.wpc = .idle
  rpc : s.rpc = .idle
  wset : s.wset = false
  rset : s.rset = false
  next : s.next = k
  start : s.start = k

theorem reach32_run {size : Nat} : ∀ (as : List Action) {s s' : State}, Reach32 size s → run32 size as s = some s' →
    Reach32 size s'
  | [], s, s', h, hr => by cases hr; exact h
  | a :: as, s, s', h, hr => by
    rw [run32] at hr
    obtain ⟨s1, h1, h2⟩ := Option.bind_eq_some_iff.1 hr
    obtain ⟨x, h3, h4⟩ := Option.bind_eq_some_iff.1 h1
    exact reach32_run as (h.step a (by rw [h3]; exact congrArg some h4)) h2

theorem passed {size : Nat} (hM : size % 2 ^ 32 = 0 ∨ 2 ^ 31 < size % 2 ^ 32) (hs : 2 ^ 31 < size) :
    ∀ k, k ≤ 2 ^ 31 → ∃ s, Passed size k s
  | 0, _ => ⟨init, .init, rfl, rfl, rfl, rfl, rfl, rfl⟩
  | k + 1, hk => by
    obtain ⟨s, h1, h2, h3, h4, h5, h6, h7⟩ := passed hM hs k (by omega)
    have hin : inside size k := ⟨by omega, by omega⟩
    have e1 : incr32 size k = k + 1 := by
      unfold incr32
      rw [Nat.mod_eq_of_lt (show k + 1 < 2 ^ 32 by omega)]
      exact if_neg (by omega)
    have e2 : incr32 size (k + 1) ≠ k := by
      unfold incr32
      rw [Nat.mod_eq_of_lt (show k + 1 + 1 < 2 ^ 32 by omega)]
      dsimp only
      split <;> omega
    have e : ∃ s', run32 size (.callW [0] 1 :: .w :: .w :: .w :: .w :: .callR [0] 1 :: List.replicate 5 .r) s = some s' ∧
        s'.wpc = .idle ∧ s'.rpc = .idle ∧ s'.wset = false ∧ s'.rset = false ∧ s'.next = k + 1 ∧ s'.start = k + 1 := by
      simp [run32, step32, Ring.step, h2, h3, h4, h5, h6, h7, wStep, rStep, wLoop, rLoop, wReturn, rReturn, hin, e1, e2]
    obtain ⟨s', g1, g2, g3, g4, g5, g6, g7⟩ := e
    exact ⟨s', reach32_run _ h1 g1, g2, g3, g4, g5, g6, g7⟩

/-- A buffer of size 0 panics at the first byte. -/
theorem C84_zero : Panics32 0 := by
  refine ⟨_, .w, reach32_run [.callW [0] 1, .w, .w] .init rfl, rfl⟩

/-- A buffer whose size is 0 or more than 2^31 modulo 2^32 panics when 2^31 bytes have passed through it. -/
theorem C84_panics {size : Nat} (hM : size % 2 ^ 32 = 0 ∨ 2 ^ 31 < size % 2 ^ 32) : Panics32 size := by
  by_cases hs : 2 ^ 31 < size
  · obtain ⟨s, h1, h2, h3, h4, h5, h6, h7⟩ := passed hM hs (2 ^ 31) (Nat.le_refl _)
    have hin : ¬inside size (2 ^ 31) := fun h => absurd h.1 (by decide)
    have e : ∃ s', run32 size [.callW [0] 1, .w, .w] s = some s' ∧ s'.wpc = .put ∧ s'.wpos = 2 ^ 31 := by
      generalize 2 ^ 31 = K at h6
      simp [run32, step32, Ring.step, h2, h6, wStep, wLoop]
    obtain ⟨s', g1, g2, g3⟩ := e
    exact ⟨s', .w, reach32_run _ h1 g1, by simp only [step32, g2, g3, if_neg hin]⟩
  · have : size = 0 := by omega
    subst this
    exact C84_zero

/-! ### Waiting too soon -/

theorem writer_alone {N : Nat} : ∀ {k k' : Nat} {s s1 s2 : State}, Ring.run N (List.replicate k .w) s = some s1 →
    s1.wpc = .idle → Ring.run N (List.replicate k' .w) s = some s2 → s2.wpc = .waitSend → Ring.step N .w s2 = none → False
  | 0, 0, s, s1, s2, h1, h2, h3, h4, _ => by cases h1; cases h3; rw [h2] at h4; cases h4
  | 0, k' + 1, s, s1, s2, h1, h2, h3, _, _ => by
    cases h1
    rw [List.replicate_succ, Ring.run] at h3
    simp [Ring.step, wStep, h2] at h3
  | k + 1, 0, s, s1, s2, h1, _, h3, _, h5 => by
    cases h3
    rw [List.replicate_succ, Ring.run, h5] at h1
    cases h1
  | k + 1, k' + 1, s, s1, s2, h1, h2, h3, h4, h5 => by
    rw [List.replicate_succ, Ring.run] at h1 h3
    obtain ⟨t, g1, g2⟩ := Option.bind_eq_some_iff.1 h1
    rw [g1] at h3
    exact writer_alone g2 h2 h3 h4 h5

/-- A buffer of another size holds no more than its remainder modulo 2^32 allows. -/
theorem C84_less {size M : Nat} (hM : M = size % 2 ^ 32) (h1 : 1 ≤ M) (h2 : M ≤ 2 ^ 31) {data : List Byte} {n : Nat}
    (hn : n ≤ data.length) (hlt : M < n + 2) (hn1 : 1 ≤ n) :
    ¬∃ k s, run32 size (.callW data n :: List.replicate k .w) init = some s ∧ s.wpc = .idle := by
  rintro ⟨k, s, h3, h4⟩
  rw [run32_eq hM h1 h2 _ .init] at h3
  have hw : ∃ k' s', Ring.run M (.callW data n :: List.replicate k' .w) init = some s' ∧ s'.wpc = .waitSend ∧
      Ring.step M .w s' = none := by
    by_cases hM2 : 2 ≤ M
    · exact C26_full hM2 (Quiet.init hM2) rfl hn (by simp [queue, init]; omega)
    · have : M = 1 := by omega
      subst M
      rw [this]
      refine ⟨7, ?_⟩
      simp [Ring.run, Ring.step, init, wStep, hn, wLoop, show 0 < n by omega, incr, wReleased]
  obtain ⟨k', s', g1, g2, g3⟩ := hw
  rw [Ring.run] at h3 g1
  obtain ⟨t, e1, e2⟩ := Option.bind_eq_some_iff.1 h3
  rw [e1] at g1
  exact writer_alone e2 h4 g1 g2 g3

theorem runW_run {N : Nat} : ∀ (k : Nat) {s s' : State}, runW N k s = some s' →
    ∃ j, Ring.run N (List.replicate j .w) s = some s' ∧ s'.wpc = .idle
  | 0, s, s', h => by
    unfold runW at h
    split at h
    · cases h; exact ⟨0, rfl, by assumption⟩
    · cases h
  | k + 1, s, s', h => by
    unfold runW at h
    split at h
    · cases h; exact ⟨0, rfl, by assumption⟩
    · obtain ⟨t, h1, h2⟩ := Option.bind_eq_some_iff.1 h
      obtain ⟨j, h3, h4⟩ := runW_run k h2
      exact ⟨j + 1, by rw [List.replicate_succ, Ring.run]; exact Option.bind_eq_some_iff.2 ⟨t, h1, h3⟩, h4⟩

/-- The claim is true exactly of the sizes from 1 to 2^31. -/
theorem C84_exact (size : Nat) : C84_statement size ↔ 1 ≤ size ∧ size ≤ 2 ^ 31 := by
  constructor
  · rintro ⟨h1, h2⟩
    by_cases hM : size % 2 ^ 32 = 0 ∨ 2 ^ 31 < size % 2 ^ 32
    · exact absurd (C84_panics hM) h1
    · refine ⟨by omega, Nat.le_of_not_lt fun hlt => ?_⟩
      have hl := List.length_replicate (n := size - 2) (a := (0 : Byte))
      exact C84_less (size := size) rfl (by omega) (by omega) (n := size - 2) (Nat.le_of_eq hl.symm) (by omega) (by omega)
        (h2 _ _ (by omega) (Nat.le_of_eq hl.symm))
  · rintro ⟨h1, h2⟩
    have hM : size = size % 2 ^ 32 := (Nat.mod_eq_of_lt (by omega)).symm
    refine ⟨C84_noPanic hM h1 h2, fun data n hn hd => ?_⟩
    obtain ⟨s, g1, _⟩ := seqWrite_ok (N := size) (by omega) (Quiet.init (by omega)) hd (by simpa [queue, init] using hn)
    obtain ⟨t, g2, g3⟩ := Option.bind_eq_some_iff.1 g1
    obtain ⟨j, g4, g5⟩ := runW_run _ g3
    exact ⟨j, s, by
      rw [run32_eq hM h1 h2 _ .init, Ring.run]
      exact Option.bind_eq_some_iff.2 ⟨t, g2, g4⟩, g5⟩

/-- So it is true of the size the library uses (gen.conn.go:71).  Missing for the full claim: 0 and the sizes above 2^31. -/
theorem C84_partial {size : Nat} (h1 : 1 ≤ size) (h2 : size ≤ 2 ^ 31) : C84_statement size := (C84_exact size).2 ⟨h1, h2⟩

example : C84_statement 5000000 := C84_partial (by decide) (by decide)

/-- The full claim is false. -/
theorem C84_fails : ¬∀ size, C84_statement size := fun h => absurd ((C84_exact 0).1 (h 0)).1 (by decide)

/-- And not of 0 only: of a buffer of 4294967298 bytes the writer waits at the first one, with one of 4294967296 bytes the
program panics. -/
theorem C84_large_fails : ¬C84_statement 4294967298 ∧ ¬C84_statement 4294967296 ∧ Panics32 4294967296 :=
  ⟨fun h => absurd ((C84_exact _).1 h).2 (by decide), fun h => absurd ((C84_exact _).1 h).2 (by decide), C84_panics (.inl rfl)⟩

end Kafka.Props
