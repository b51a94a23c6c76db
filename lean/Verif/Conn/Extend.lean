import Verif.Conn.Fair
/-!
Every state that can be reached has a future in which no goroutine is passed over for ever: the goroutines stand in a
queue, the first one that can go on does and goes to the end.
-/
namespace Kafka.Conn

open Kafka

/-- The goroutines, numbered. -/
def Proc.num : Nat → Proc
  | 0 => .message
  | 1 => .read
  | n + 2 => if n % 2 = 0 then .call (n / 2) else .close (n / 2)

theorem Proc.num_surj (p : Proc) : ∃ i, Proc.num i = p := by
  cases p with
  | message => exact ⟨0, rfl⟩
  | read => exact ⟨1, rfl⟩
  | call c => exact ⟨2 * c + 2, by simp [Proc.num]⟩
  | close k =>
    refine ⟨(2 * k + 1) + 2, ?_⟩
    have : (2 * k + 1) % 2 ≠ 0 := by omega
    simp only [Proc.num, this, if_false, Proc.close.injEq]
    omega

/-- The operation is not a `raw.Write` that fails while the connection is open. -/
def Act.sound (s : State) : Act → Prop
  | .writeErr _ _ _ => s.rawClosed = true
  | _ => True

/-- The goroutine can go on, the network connection taking bytes. -/
def Goes (P : Params) (s : State) : Proc → Prop
  | .call c => ∃ a : Act, a.by (.call c) = true ∧ a.sound s ∧ (step P a s).isSome
  | p => CanGo P s p

theorem CanGo.goes {P : Params} {s : State} {p : Proc} (h : CanGo P s p) : Goes P s p := by
  cases p with
  | call c =>
    rcases h with h | ⟨hr, e, h⟩
    · exact ⟨.call c, by simp [Act.by], trivial, h⟩
    · exact ⟨.writeErr c 0 e, by simp [Act.by], hr, h⟩
  | _ => exact h

theorem Goes.act {P : Params} {s : State} {p : Proc} (h : Goes P s p) :
    ∃ a : Act, a.by p = true ∧ a.sound s ∧ (step P a s).isSome := by
  cases p with
  | message => obtain ⟨a, h1, h2⟩ := h; exact ⟨a, h1, by cases a <;> first | trivial | cases h1, h2⟩
  | read => obtain ⟨⟨a, h1, h2⟩, _⟩ := h; exact ⟨a, h1, by cases a <;> first | trivial | cases h1, h2⟩
  | call c => exact h
  | close k => exact ⟨.close k, by simp [Act.by], trivial, h.2⟩

/-- What the goroutine does, and what comes of it. -/
noncomputable def pick {P : Params} {s : State} {p : Proc} (h : Goes P s p) :
    { x : Act × State // x.1.by p = true ∧ x.1.sound s ∧ step P x.1 s = some x.2 } :=
  have h1 : ∃ x : Act × State, x.1.by p = true ∧ x.1.sound s ∧ step P x.1 s = some x.2 := by
    obtain ⟨a, h1, h2, h3⟩ := h.act
    obtain ⟨s', h4⟩ := Option.isSome_iff_exists.1 h3
    exact ⟨(a, s'), h1, h2, h4⟩
  ⟨Classical.choose h1, Classical.choose_spec h1⟩

open Classical in
/-- Who goes on: the first in the queue that can. -/
noncomputable def turn (P : Params) (s : State) (q : List Nat) : Option Nat := q.find? fun i => decide (Goes P s (.num i))

theorem turn_goes {P : Params} {s : State} {q : List Nat} {i : Nat} (h : turn P s q = some i) : Goes P s (.num i) := by
  have := List.find?_some h
  simpa using this

open Classical in
/-- One moment: another goroutine joins the queue, the first that can go on does. -/
noncomputable def next (P : Params) (n : Nat) (x : State × List Nat) : Option Act × State × List Nat :=
  match h : turn P x.1 (x.2 ++ [n]) with
  | none => (none, x.1, x.2 ++ [n])
  | some i => (some (pick (turn_goes h)).1.1, (pick (turn_goes h)).1.2, (x.2 ++ [n]).erase i ++ [i])

noncomputable def future (P : Params) (s : State) : Nat → State × List Nat
  | 0 => (s, [])
  | n + 1 => (next P n (future P s n)).2

theorem next_none {P : Params} {n : Nat} {x : State × List Nat} (h : turn P x.1 (x.2 ++ [n]) = none) :
    next P n x = (none, x.1, x.2 ++ [n]) := by
  unfold next
  split
  · rfl
  · rename_i h'; rw [h] at h'; cases h'

theorem next_some {P : Params} {n i : Nat} {x : State × List Nat} (h : turn P x.1 (x.2 ++ [n]) = some i) :
    ∃ a s', next P n x = (some a, s', (x.2 ++ [n]).erase i ++ [i]) ∧ a.by (.num i) = true ∧
      a.sound x.1 ∧ step P a x.1 = some s' := by
  unfold next
  split
  · rename_i h'; rw [h] at h'; cases h'
  · rename_i j h'
    rw [h] at h'
    cases h'
    exact ⟨_, _, rfl, (pick (turn_goes h)).2⟩

/-- The queue as it is at the moment `n`, when the next one is chosen. -/
noncomputable def queue (P : Params) (s : State) (n : Nat) : List Nat := (future P s n).2 ++ [n]

/-- Who is waiting in the queue, has `k` before him. -/
def Ahead (q : List Nat) (i k : Nat) : Prop := ∃ l r, q = l ++ i :: r ∧ l.length = k

theorem Ahead.next {P : Params} {s : State} {n i k : Nat} (h : Ahead (queue P s n) i k)
    (hi : turn P (future P s n).1 (queue P s n) ≠ some i) :
    ∃ k', k' ≤ k ∧ Ahead (queue P s (n + 1)) i k' ∧ (Goes P (future P s n).1 (.num i) → k' < k) := by
  classical
  obtain ⟨l, r, hq, rfl⟩ := h
  unfold queue at hq hi ⊢
  cases ht : turn P (future P s n).1 ((future P s n).2 ++ [n]) with
  | none =>
    refine ⟨l.length, Nat.le_refl _, ⟨l, r ++ [n + 1], ?_, rfl⟩, fun hg => ?_⟩
    · rw [future, next_none ht, hq]; simp
    · rw [turn, List.find?_eq_none] at ht
      exact absurd hg (by simpa using ht i (by rw [hq]; simp))
  | some j =>
    obtain ⟨a, s', h1, _⟩ := next_some ht
    have hji : j ≠ i := fun hx => hi (by rw [ht, hx])
    rw [turn, hq, List.find?_append] at ht
    by_cases hj : j ∈ l
    · refine ⟨(l.erase j).length, List.length_erase_le, ⟨l.erase j, r ++ [j] ++ [n + 1], ?_, rfl⟩, fun _ => ?_⟩
      · rw [future, h1, hq, List.erase_append_left _ hj]; simp
      · rw [List.length_erase_of_mem hj]
        have := List.length_pos_of_mem hj
        omega
    · refine ⟨l.length, Nat.le_refl _, ⟨l, r.erase j ++ [j] ++ [n + 1], ?_, rfl⟩, fun hg => ?_⟩
      · rw [future, h1, hq, List.erase_append_right _ hj, List.erase_cons_tail (by simpa using fun h => hji h.symm)]; simp
      · exfalso
        cases hf : l.find? fun i => decide (Goes P (future P s n).1 (.num i)) with
        | none =>
          rw [hf] at ht
          simp [hg] at ht
          exact hji ht.symm
        | some j' =>
          rw [hf] at ht
          cases ht
          exact hj (List.mem_of_find?_eq_some hf)

theorem queue_mem {P : Params} {s : State} {i : Nat} : ∀ n, i ≤ n → i ∈ queue P s n := by
  classical
  have step : ∀ n, i ∈ queue P s n → i ∈ (future P s (n + 1)).2 := fun n h => by
    rw [future]
    unfold queue at h
    cases ht : turn P (future P s n).1 ((future P s n).2 ++ [n]) with
    | none => rw [next_none ht]; exact h
    | some j =>
      obtain ⟨a, s', h1, _⟩ := next_some ht
      rw [h1]
      by_cases hj : i = j
      · simp [hj]
      · simp [(List.mem_erase_of_ne hj).2 h]
  intro n hn
  induction hn with
  | refl => simp [queue]
  | step _ ih => exact List.mem_append_left _ (step _ ih)

/-- Who can go on again and again is chosen again and again. -/
theorem turn_again {P : Params} {s : State} {i : Nat} (hg : ∀ n, ∃ m, n ≤ m ∧ Goes P (future P s m).1 (.num i)) (n : Nat) :
    ∃ m, n ≤ m ∧ turn P (future P s m).1 (queue P s m) = some i := by
  refine Classical.byContradiction fun hno => ?_
  have hno : ∀ m, n ≤ m → turn P (future P s m).1 (queue P s m) ≠ some i := fun m hm hx => hno ⟨m, hm, hx⟩
  have stay : ∀ m k, n ≤ m → Ahead (queue P s m) i k → ∀ m', m ≤ m' → ∃ k', k' ≤ k ∧ Ahead (queue P s m') i k' := by
    intro m k hm h m' hm'
    induction hm' with
    | refl => exact ⟨k, Nat.le_refl _, h⟩
    | @step m' hm' ih =>
      obtain ⟨k', h1, h2⟩ := ih
      obtain ⟨k'', h3, h4, _⟩ := h2.next (hno m' (Nat.le_trans hm hm'))
      exact ⟨k'', by omega, h4⟩
  have key : ∀ k m, n ≤ m → ¬Ahead (queue P s m) i k := by
    intro k
    induction k using Nat.strongRecOn with
    | _ k ih =>
      intro m hm h
      obtain ⟨m', h1, h2⟩ := hg m
      obtain ⟨k', h3, h4⟩ := stay m k hm h m' h1
      obtain ⟨k'', h5, h6, h7⟩ := h4.next (hno m' (by omega))
      exact ih k'' (by have := h7 h2; omega) (m' + 1) (by omega) h6
  obtain ⟨l, r, h⟩ := List.append_of_mem (queue_mem (P := P) (s := s) (i := i) (max n i) (Nat.le_max_right _ _))
  exact key l.length (max n i) (Nat.le_max_left _ _) ⟨l, r, h, rfl⟩

/-- Every state that can be reached has a future in which no goroutine is passed over for ever and, unless one panics, the
network connection takes bytes, and fails only when it has been closed. -/
theorem exec_extends {P : Params} {s : State} (h : Reach P Any s) :
    ∃ st act, st 0 = s ∧ Exec P st act ∧ Fair P st act ∧
      ((∀ m, (st m).crashed = false) → Takes st act) ∧ ∀ n a, act n = some a → a.sound (st n) := by
  have hact : ∀ n i, turn P (future P s n).1 (queue P s n) = some i →
      ∃ a, (next P n (future P s n)).1 = some a ∧ a.by (.num i) = true := fun n i ht => by
    obtain ⟨a, s', h1, h2, _⟩ := next_some ht
    exact ⟨a, by rw [h1], h2⟩
  have hex : Exec P (fun n => (future P s n).1) (fun n => (next P n (future P s n)).1) := by
    refine ⟨h, fun n a ha => ?_, fun n ha => ?_⟩
    · cases ht : turn P (future P s n).1 ((future P s n).2 ++ [n]) with
      | none => rw [next_none ht] at ha; cases ha
      | some i =>
        obtain ⟨a', s', h1, h2, _, h3⟩ := next_some ht
        simp only [h1, Option.some.injEq] at ha
        subst ha
        simp only [future, h1]
        exact h3
    · cases ht : turn P (future P s n).1 ((future P s n).2 ++ [n]) with
      | none => simp only [future, next_none ht]
      | some i =>
        obtain ⟨a', s', h1, h2, h3⟩ := next_some ht
        simp only [h1] at ha
        cases ha
  have hgo : ∀ p, (∀ n, ∃ m, n ≤ m ∧ Goes P (future P s m).1 p) → ∀ n, ∃ m a, n ≤ m ∧
      (next P m (future P s m)).1 = some a ∧ a.by p = true := fun p hp n => by
    obtain ⟨i, rfl⟩ := Proc.num_surj p
    obtain ⟨m, h1, h2⟩ := turn_again hp n
    obtain ⟨a, h3, h4⟩ := hact m i h2
    exact ⟨m, a, h1, h3, h4⟩
  refine ⟨_, _, rfl, hex, fun p hp n => hgo p (fun n => ?_) n, fun hcr n c rest hp hne => ?_, fun n a ha => ?_⟩
  · obtain ⟨m, h1, h2⟩ := hp n
    exact ⟨m, h1, h2.goes⟩
  · refine Classical.byContradiction fun hno => ?_
    have hI := hex.keep (I := fun s => (s.calls c).pc = .writing rest) (n := n) (fun m hm a ha ht hi => by
      rw [ht.pc (Bool.eq_false_iff.2 fun hb => hno ⟨m, a, hm, ha, hb⟩) (by simp [hi])]; exact hi) hp
    refine hno (hgo (.call c) (fun k => ⟨max n k, Nat.le_max_right _ _, ?_⟩) n)
    have h1 := hI (max n k) (Nat.le_max_left _ _)
    have h2 := hcr (max n k)
    have h3 := List.length_pos_iff.2 hne
    cases hr : (future P s (max n k)).1.rawClosed with
    | true => exact ⟨.writeErr c 0 ⟨0⟩, by simp [Act.by], hr, by simp [Conn.step, h1, h2, hne]⟩
    | false => exact ⟨.write c rest.length, by simp [Act.by], trivial, by simp [Conn.step, h1, h2, h3, hr]⟩
  · cases ht : turn P (future P s n).1 ((future P s n).2 ++ [n]) with
    | none => simp only [next_none ht] at ha; cases ha
    | some i =>
      obtain ⟨a', s', h1, _, h2, _⟩ := next_some ht
      simp only [h1, Option.some.injEq] at ha
      subst ha
      exact h2

end Kafka.Conn
