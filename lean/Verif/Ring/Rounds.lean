import Verif.Ring.Mutex
import Verif.Ring.Pos
import Verif.Ring.Close
/-!
How far the reader gets by itself: at most twice round the buffer.
-/
set_option linter.unusedSimpArgs false
namespace Kafka.Ring

/-- From position `a` to position `b`. -/
def dist (N a b : Nat) : Nat := if a ≤ b then b - a else b + N - a

theorem dist_lt {N a b : Nat} (ha : a < N) (hb : b < N) : dist N a b < N := by unfold dist; split <;> omega

theorem dist_incr {N a b : Nat} (ha : a < N) (hb : b < N) (h : a ≠ b) : dist N (incr N a) b + 1 = dist N a b := by
  unfold dist incr
  repeat' split
  all_goals omega

/-- Bound on the bytes that the reader reads before it waits, unless the writer does something. -/
def ahead (N : Nat) (s : State) : Nat :=
  match s.rpc with
  | .idle | .load1 | .load2 => dist N (s.got.length % N) s.next
  | .get => (if s.got.length % N = s.rnext then N else dist N (s.got.length % N) s.rnext) + if s.rnext = s.next then 0 else N
  | _ => dist N (s.got.length % N) s.rnext + if s.rnext = s.next then 0 else N

theorem ahead_rLoop {N : Nat} (s : State) (h : s.rpos = s.got.length % N) :
    ahead N (rLoop s) = dist N (s.got.length % N) s.rnext + if s.rnext = s.next then 0 else N := by
  unfold rLoop
  split
  · split
    · rfl
    · rename_i hne
      rw [h] at hne
      simp only [ahead, if_neg hne]
  · rfl

theorem wLoop_ahead {N : Nat} (s : State) : ahead N (wLoop s) = ahead N s := by
  unfold wLoop; split <;> rfl

theorem rLoop_got' (s : State) : (rLoop s).got = s.got := by
  unfold rLoop; split <;> (try split) <;> rfl

theorem wLoop_got' (s : State) : (wLoop s).got = s.got := by unfold wLoop; split <;> rfl

theorem rStep_ahead {N : Nat} (hN : 0 < N) {s s' : State} (hp : Pos N s) (hm : s.rpc = .waitCas → s.rset = false)
    (hc : s.closed = false) (hs : rStep N s = some s') : s'.got.length + ahead N s' ≤ s.got.length + ahead N s := by
  have hg := Nat.mod_lt s.got.length hN
  have hx : s.next < N := by rw [hp.next]; exact Nat.mod_lt _ hN
  have hpos := hp.rpos
  have hd := dist_lt hg hx
  unfold rStep at hs
  split at hs <;> rename_i hpc <;> simp only [hpc, RPc.loaded, forall_const] at hpos
  case h_1 => simp at hs
  case h_3 =>
    simp only [Option.some.injEq] at hs; subst hs
    refine Nat.add_le_add (Nat.le_of_eq (by rw [rLoop_got'])) (Nat.le_of_eq ((ahead_rLoop _ (by exact hpos)).trans ?_))
    simp [ahead, hpc]
  case h_10 =>
    simp only [Option.some.injEq] at hs; subst hs
    have hn : s.rnext < N := by rw [hp.rnext (by rw [hpc]; rfl)]; exact Nat.mod_lt _ hN
    have e : incr N s.rpos = (s.got.length + 1) % N := by rw [hpos, incr_mod hN]
    rw [ahead_rLoop _ (by simp only [List.length_append, List.length_singleton]; exact e), rLoop_got']
    simp only [List.length_append, List.length_singleton, ahead, hpc]
    rw [← incr_mod hN]
    by_cases h : s.got.length % N = s.rnext
    · rw [if_pos h]
      have hg' : incr N (s.got.length % N) < N := by unfold incr; split <;> omega
      have := dist_lt hg' hn
      omega
    · rw [if_neg h]
      have := dist_incr hg hn h
      omega
  case h_8 => simp only [hm hpc, Option.some.injEq, Bool.false_eq_true, if_false] at hs; subst hs; simp [ahead, hpc]
  case h_7 =>
    simp only [Option.some.injEq] at hs; subst hs
    rw [hpos]
    split
    · simp only [ahead, hpc, if_true]
      split <;> simp_all <;> omega
    · rename_i h
      simp only [ahead, hpc, if_true, if_neg h]
      split <;> simp_all <;> omega
  all_goals
    (try split at hs) <;> simp only [Option.some.injEq, reduceCtorEq] at hs <;> subst hs <;>
    (try split) <;> simp_all [ahead, rReturn] <;> (try split) <;> (try simp_all) <;> omega

theorem ahead_next {N : Nat} {s t : State} (h1 : t.rpc = s.rpc) (h2 : t.got = s.got) (h3 : t.rnext = s.rnext)
    (hd : dist N (s.got.length % N) t.next < N) : ahead N t ≤ ahead N s + N := by
  unfold ahead
  rw [h1, h2, h3]
  cases s.rpc <;> simp only <;> (repeat' split) <;> omega

theorem ahead_woken {N : Nat} {s t : State} (h0 : s.rpc = .waitSend) (h1 : t.rpc = .get) (h2 : t.got = s.got)
    (h3 : t.rnext = s.rnext) (h4 : t.next = s.next) : ahead N t ≤ ahead N s + N := by
  unfold ahead
  rw [h0, h1, h2, h3, h4]
  simp only
  (repeat' split) <;> omega

theorem wStep_reader {N : Nat} {s s' : State} (hs : wStep N s = some s') :
    s'.rpc = s.rpc ∧ s'.got = s.got ∧ s'.rnext = s.rnext := by
  have hL : ∀ t : State, (wLoop t).rpc = t.rpc ∧ (wLoop t).got = t.got ∧ (wLoop t).rnext = t.rnext := fun t => by
    unfold wLoop; split <;> exact ⟨rfl, rfl, rfl⟩
  unfold wStep at hs
  split at hs <;> (try split at hs) <;> simp only [Option.some.injEq, reduceCtorEq] at hs <;> subst hs <;>
    (try split) <;> first
      | exact ⟨rfl, rfl, rfl⟩
      | exact hL _

theorem wStep_ahead {N : Nat} (hN : 0 < N) {s s' : State} (hp' : Pos N s') (hs : wStep N s = some s') :
    s'.got.length + ahead N s' ≤ s.got.length + ahead N s + N := by
  obtain ⟨h1, h2, h3⟩ := wStep_reader hs
  have hd := dist_lt (Nat.mod_lt s.got.length hN) (by rw [hp'.next]; exact Nat.mod_lt _ hN : s'.next < N)
  have := ahead_next h1 h2 h3 hd
  rw [h2]
  omega

/-- While the buffer is not closed, the reader gets no further by its own operations, and at most once more round the buffer by
each of the writer. -/
theorem step_ahead {N : Nat} (hN : 0 < N) {a : Action} {s s' : State} (hp : Pos N s) (hp' : Pos N s')
    (hm : s.rpc = .waitCas → s.rset = false) (hc : s.closed = false) (hs : step N a s = some s') :
    s'.got.length + ahead N s' ≤ s.got.length + ahead N s + if a.ofWriter then N else 0 := by
  have hd := dist_lt (Nat.mod_lt s.got.length hN) (by rw [hp.next]; exact Nat.mod_lt _ hN : s.next < N)
  cases a with
  | w => exact wStep_ahead hN hp' hs
  | r => exact rStep_ahead hN hp hm hc hs
  | callW =>
    simp only [step] at hs
    split at hs <;> simp only [Option.some.injEq, reduceCtorEq] at hs
    subst hs
    simp [ahead]
  | callR =>
    simp only [step] at hs
    split at hs <;> simp only [Option.some.injEq, reduceCtorEq] at hs
    rename_i h
    subst hs
    simp [ahead, h.1]
  | close => simp only [step, Option.some.injEq] at hs; subst hs; simp [ahead]
  | handR =>
    simp only [step] at hs
    split at hs
    · rename_i hr
      split at hs
      · simp only [Option.some.injEq] at hs; subst hs
        have := ahead_woken (N := N) (t := wReleased (rWaited s)) hr rfl rfl rfl rfl
        show s.got.length + _ ≤ s.got.length + _ + N
        omega
      · split at hs
        · simp only [Option.some.injEq] at hs; subst hs
          have := ahead_woken (N := N) (t := wReturn (rWaited s)) hr rfl rfl rfl rfl
          show s.got.length + _ ≤ s.got.length + _ + N
          omega
        · cases hs
    · cases hs
  | handW =>
    simp only [step] at hs
    split at hs
    · split at hs
      · rename_i hr
        simp only [Option.some.injEq] at hs; subst hs
        simp only [wWaited, wLoop_ahead, wLoop_got', Action.ofWriter, if_true]
        simp only [ahead, hr]; omega
      · split at hs
        · rename_i hr
          simp only [Option.some.injEq] at hs; subst hs
          simp only [wWaited, wLoop_ahead, wLoop_got', Action.ofWriter, if_true]
          simp only [ahead, rReturn, hr]; omega
        · cases hs
    · cases hs

/-- It is less than twice round the buffer, and a byte. -/
theorem ahead_le {N : Nat} (hN : 0 < N) {s : State} (hp : Pos N s) : ahead N s ≤ 2 * N := by
  have hd := dist_lt (Nat.mod_lt s.got.length hN) (by rw [hp.next]; exact Nat.mod_lt _ hN : s.next < N)
  have hn : s.rpc.looping → dist N (s.got.length % N) s.rnext < N := fun h =>
    dist_lt (Nat.mod_lt s.got.length hN) (by rw [hp.rnext h]; exact Nat.mod_lt _ hN)
  unfold ahead
  cases hpc : s.rpc <;> simp only [hpc, RPc.looping, forall_const] at hn ⊢ <;> (repeat' split) <;> omega

end Kafka.Ring
