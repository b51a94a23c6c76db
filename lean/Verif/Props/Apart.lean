import Verif.Props.OneByOne
import Verif.Conn.Apart
/-!
C34, and the other claims about replies, for connections of any age: the 2^32 ids are enough as long as no call is
outstanding while 2^32 others are made.
-/
namespace Kafka.Props

open Kafka Kafka.Conn

/-- If no call has been outstanding while 2^32 others were numbered, no two calls outstanding have the same id. -/
theorem C32_window_partial {P : Params} {s : Conn.State} (h : Conn.Reach P Conn.Any s)
    (hw : ∀ c, (s.calls c).pc.numbered = true → (∀ o, (s.calls c).pc ≠ .done o) → s.count < (s.calls c).seq + 2 ^ 32) :
    Distinct s := by
  intro c c' hc hc' hd hd' hid
  have h1 := h.ids.call c hc
  have h2 := h.ids.call c' hc'
  have h3 := (C32_ids_partial h hc hc' hid).1
  have h4 := hw c hc hd
  have h5 := hw c' hc' hd'
  exact h.ids.inj c c' hc hc' (by omega)

/-- So it is, for ever, if the calls are made one at a time. -/
theorem C32_oneByOne_partial {P : Params} {s : Conn.State} (h : Conn.Reach P OneByOne s) : Distinct s := by
  obtain ⟨m, k, h1, h2, _⟩ := line h
  intro c c' hc hc' hd hd' _
  have only : ∀ c, (s.calls c).pc.numbered = true → (∀ o, (s.calls c).pc ≠ .done o) → c = m := by
    intro c hn hd
    rcases Nat.lt_trichotomy c m with hlt | rfl | hgt
    · obtain ⟨o, ho⟩ := h1 c hlt; exact absurd ho (hd o)
    · rfl
    · rw [h2 c hgt] at hn; cases hn
  rw [only c hc hd, only c' hc' hd']

/-- C34 for a call outstanding on a connection on which no two calls outstanding have had the same id: its request is in
the map, or has been taken, or has been answered.  Missing for the full claim: when two have, see `C34_fails`. -/
theorem C34_apart_partial {P : Params} {s : Conn.State} (h : Conn.Reach P (fun s _ => Distinct s) s) {c : Nat}
    (hs : (s.calls c).sent ≠ []) (hd : ∀ o, (s.calls c).pc ≠ .done o) :
    s.requests (s.calls c).id = some c ∨ s.mpc.taken = some c ∨ (s.calls c).decodes = 1 := by
  refine h.kept (fun _ _ h => h) c ?_ hd
  cases hb : (s.calls c).pc.before with
  | true => exact absurd (h.wires.before c hb).2 hs
  | false => cases hp : (s.calls c).pc <;> rw [hp] at hb <;> first | (cases hb; done) | rfl

/-- So a reply that arrives finds the call, however many calls have been made before. -/
theorem C34_apart_found {P : Params} {s : Conn.State} (h : Conn.Reach P (fun s _ => Distinct s) s) {c : Nat} {d : Decoder}
    (hs : (s.calls c).sent ≠ []) (hno : ∀ o, (s.calls c).pc ≠ .done o) (hd : (s.calls c).decodes = 0)
    (hm : s.mpc = .lookup (s.calls c).id d) (hc : s.crashed = false) :
    ∃ s', Conn.step P .message s = some s' ∧ s'.mpc = .delete (s.calls c).id d (some c) := by
  have h1 : s.requests (s.calls c).id = some c := by
    rcases C34_apart_partial h hs hno with h1 | h1 | h1
    · exact h1
    · rw [hm] at h1; cases h1
    · omega
  exact ⟨_, by rw [step_message hc]; simp only [messageStep, hm, h1]; rfl, rfl⟩

/-- Calls made one at a time, `n` of which have returned an error. -/
structure FlushFailed (P : Params) (n : Nat) (s : Conn.State) : Prop where
  reach : Conn.Reach P OneByOne s
  crashed : s.crashed = false
  count : s.count = n
  readLock : s.readLock = none
  writeLock : s.writeLock = none
  werr : s.werr = some ⟨0⟩
  before : ∀ j, j < n → (s.calls j).pc = .done (.flushErr ⟨0⟩)
  later : ∀ j, n ≤ j → (s.calls j).pc = .absent

theorem FlushFailed.one (P : Params) : ∃ s, FlushFailed P 1 s := by
  have h : (Conn.run P [.start 0 sampleJob, .call 0, .call 0, .call 0, .call 0, .call 0, .call 0, .writeErr 0 0 ⟨0⟩,
      .call 0] (Conn.init P)).isSome = true := rfl
  obtain ⟨s, hs⟩ := Option.isSome_iff_exists.1 h
  have hr : Conn.Reach P OneByOne s := by
    rw [Conn.run] at hs
    obtain ⟨s1, h1, h2⟩ := Option.bind_eq_some_iff.1 hs
    exact (Conn.Reach.init.step _ ⟨fun j hj => absurd hj (Nat.not_lt_zero j), fun _ _ => rfl⟩ h1).run _
      (fun a ha _ => by simp at ha; rcases ha with rfl | rfl | rfl <;> trivial) h2
  refine ⟨s, ?_⟩
  cases hs
  refine ⟨hr, rfl, rfl, rfl, rfl, rfl, ?_, ?_⟩
  · intro j h1
    have : j = 0 := by omega
    subst this; rfl
  · intro j hj
    have h0 : j ≠ 0 := by omega
    simp [State.set, Conn.init, h0]

theorem FlushFailed.next {P : Params} {n : Nat} {s : Conn.State} (h : FlushFailed P n s) : ∃ s', FlushFailed P (n + 1) s' := by
  have hp := h.later n (Nat.le_refl _)
  have e : ∃ s', Conn.run P (.start n sampleJob :: List.replicate 7 (.call n)) s = some s' ∧
      s'.crashed = false ∧ s'.count = s.count + 1 ∧ s'.readLock = none ∧ s'.writeLock = none ∧
      s'.werr = some ⟨0⟩ ∧ (s'.calls n).pc = .done (.flushErr ⟨0⟩) ∧ ∀ j, j ≠ n → s'.calls j = s.calls j := by
    simp [Conn.run, Conn.step, callStep, h.crashed, hp, State.set, h.readLock, h.writeLock, h.werr]
    intro j hj
    simp [hj]
  obtain ⟨s', e1, e2, e3, e4, e5, e6, e7, e8⟩ := e
  refine ⟨s', ?_, e2, by rw [e3, h.count], e4, e5, e6, ?_, ?_⟩
  · rw [Conn.run] at e1
    obtain ⟨s1, h1, h2⟩ := Option.bind_eq_some_iff.1 e1
    have hok : OneByOne s (.start n sampleJob) := ⟨fun j hj => ⟨_, h.before j hj⟩, h.later⟩
    exact (h.reach.step _ hok h1).run _
      (fun a ha _ => by rw [List.mem_replicate] at ha; obtain ⟨_, rfl⟩ := ha; trivial) h2
  · intro j h2
    by_cases hj : j = n
    · subst hj; exact e7
    · rw [e8 j hj]; exact h.before j (by omega)
  · intro j hj
    rw [e8 j (by omega)]
    exact h.later j (by omega)

/-- Non-trivial instance of `C32_oneByOne_partial`: a connection on which any number of calls have been made, also more than
there are ids. -/
theorem apart_example (P : Params) (n : Nat) : ∃ s, Conn.Reach P OneByOne s ∧ s.count = n + 1 := by
  have h : ∃ s, FlushFailed P (n + 1) s := by
    induction n with
    | zero => exact FlushFailed.one P
    | succ n ih => exact ih.elim fun s h => h.next
  obtain ⟨s, h⟩ := h
  exact ⟨s, h.reach, h.count⟩

/-- Non-trivial instance of `C34_apart_partial` and `C34_apart_found`. -/
example : ∃ s d, Conn.Reach small (fun s _ => Distinct s) s ∧ (s.calls 0).sent ≠ [] ∧ (s.calls 0).pc = .recv ∧
    (s.calls 0).decodes = 0 ∧ s.mpc = .lookup (s.calls 0).id d ∧ s.crashed = false := by
  have h : ((Conn.run small (callDo 0 ++ deliver [0, 0, 0, 4, 0, 0, 0, 1] ++ fetch ++ [.message])
      (Conn.init small)).bind fun s => match s.mpc with
        | .lookup id d => if s.crashed = false ∧ id = (s.calls 0).id ∧ (s.calls 0).sent ≠ [] ∧ ((s.calls 0).pc matches .recv) = true ∧
            (s.calls 0).decodes = 0 ∧ s.count ≤ 2 ^ 32 then some d.raw else none
        | _ => none).isSome = true := by decide +kernel
  obtain ⟨x, hx⟩ := Option.isSome_iff_exists.1 h
  obtain ⟨s, h1, h2⟩ := Option.bind_eq_some_iff.1 hx
  cases hm : s.mpc <;> rw [hm] at h2 <;> simp only [reduceCtorEq] at h2
  case lookup id d =>
    simp only [Option.ite_none_right_eq_some] at h2
    obtain ⟨⟨e1, e2, e3, e4, e5, e6⟩, _⟩ := h2
    refine ⟨s, d, (connReach_of_run h1).apart e6, e3, ?_, e5, by rw [hm, e2], e1⟩
    cases hp : (s.calls 0).pc <;> rw [hp] at e4 <;> first | rfl | cases e4

end Kafka.Props
