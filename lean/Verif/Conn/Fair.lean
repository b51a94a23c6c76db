import Verif.Conn.Live
/-!
Infinite executions of a connection in which no goroutine is passed over for ever.
-/
set_option linter.unusedSimpArgs false

namespace Kafka.Conn

open Kafka

/-- The goroutines: the two loops, the callers of `Do` and of `Close`. -/
inductive Proc where
  | message
  | read
  | call (c : Nat)
  | close (k : Nat)

/-- Whose operation it is.  (A hand-over in the ring buffer is one of both loops.) -/
def Act.by : Act → Proc → Bool
  | a, .message => a.ofMessage
  | a, .read => a.ofRead
  | .call c, .call j | .write c _, .call j | .writeErr c _ _, .call j => c == j
  | .close k, .close j => k == j
  | _, _ => false

/-- The goroutine can go on without the peer: it has an operation that is possible, and this is not a `raw.Read` or
`raw.Write` on an open connection, which may take for ever. -/
def CanGo (P : Params) (s : State) : Proc → Prop
  | .message => ∃ a : Act, a.ofMessage = true ∧ (step P a s).isSome
  | .read => (∃ a : Act, a.ofRead = true ∧ (step P a s).isSome) ∧ (s.lpc = .read → s.rawClosed = true)
  | .call c => (step P (.call c) s).isSome ∨ s.rawClosed = true ∧ ∃ e, (step P (.writeErr c 0 e) s).isSome
  | .close k => s.closers k ≠ .absent ∧ (step P (.close k) s).isSome

/-- An infinite execution: at every moment an operation or nothing happens. -/
structure Exec (P : Params) (st : Nat → State) (act : Nat → Option Act) : Prop where
  start : Reach P Any (st 0)
  some : ∀ n a, act n = some a → step P a (st n) = some (st (n + 1))
  none : ∀ n, act n = none → st (n + 1) = st n

/-- A goroutine that is ready again and again goes on again and again (the locks of Go and its scheduler see to it). -/
def Fair (P : Params) (st : Nat → State) (act : Nat → Option Act) : Prop :=
  ∀ p, (∀ n, ∃ m, n ≤ m ∧ CanGo P (st m) p) → ∀ n, ∃ m a, n ≤ m ∧ act m = some a ∧ a.by p = true

section
variable {P : Params} {st : Nat → State} {act : Nat → Option Act}

theorem Exec.reach (h : Exec P st act) : ∀ n, Reach P Any (st n)
  | 0 => h.start
  | n + 1 => by
    cases ha : act n with
    | none => rw [h.none n ha]; exact h.reach n
    | some a => exact (h.reach n).step a trivial (h.some n a ha)

/-- The transitions, or nothing. -/
theorem Exec.trans (h : Exec P st act) (n : Nat) :
    act n = .none ∧ st (n + 1) = st n ∨ ∃ a, act n = .some a ∧ Trans P (st n) a (st (n + 1)) := by
  cases ha : act n with
  | none => exact .inl ⟨rfl, h.none n ha⟩
  | some a => exact .inr ⟨a, rfl, step_trans (h.some n a ha)⟩

/-- What is kept by every operation stays. -/
theorem Exec.keep (h : Exec P st act) {I : State → Prop} {n : Nat}
    (hs : ∀ m, n ≤ m → ∀ a, act m = .some a → Trans P (st m) a (st (m + 1)) → I (st m) → I (st (m + 1)))
    (h0 : I (st n)) : ∀ m, n ≤ m → I (st m) := by
  intro m hm
  induction hm with
  | refl => exact h0
  | @step m hm ih =>
    rcases h.trans m with ⟨_, h2⟩ | ⟨a, h1, h2⟩
    · rw [h2]; exact ih
    · exact hs m hm a h1 h2 ih

/-- If a goroutine is ready again and again as long as `I` holds, `I` holds until `Q` and its operations lead to `Q`, then
`Q` comes. -/
theorem Fair.step (hf : Fair P st act) (h : Exec P st act) (p : Proc) (I Q : State → Prop) {n : Nat}
    (hready : (∀ m, n ≤ m → I (st m)) → ∀ k, ∃ m, k ≤ m ∧ CanGo P (st m) p)
    (hkeep : ∀ m, n ≤ m → ∀ a, Trans P (st m) a (st (m + 1)) → I (st m) → I (st (m + 1)) ∨ Q (st (m + 1)))
    (hown : ∀ m, n ≤ m → ∀ a, a.by p = true → Trans P (st m) a (st (m + 1)) → I (st m) → Q (st (m + 1)))
    (h0 : I (st n)) : ∃ m, n ≤ m ∧ Q (st m) := by
  by_cases hq : ∃ m, n ≤ m ∧ Q (st m)
  · exact hq
  · have hI : ∀ m, n ≤ m → I (st m) := h.keep (fun m hm a _ ht hi =>
      (hkeep m hm a ht hi).resolve_right fun hq' => hq ⟨m + 1, by omega, hq'⟩) h0
    obtain ⟨m, a, hm, ha, hp⟩ := hf p (hready hI) n
    exact ⟨m + 1, by omega, hown m hm a hp (step_trans (h.some m a ha)) (hI m hm)⟩

/-- The same with a goroutine that is ready as long as `I` holds. -/
theorem Fair.stepReady (hf : Fair P st act) (h : Exec P st act) (p : Proc) (I Q : State → Prop) {n : Nat}
    (hready : ∀ m, n ≤ m → I (st m) → CanGo P (st m) p)
    (hkeep : ∀ m, n ≤ m → ∀ a, Trans P (st m) a (st (m + 1)) → I (st m) → I (st (m + 1)) ∨ Q (st (m + 1)))
    (hown : ∀ m, n ≤ m → ∀ a, a.by p = true → Trans P (st m) a (st (m + 1)) → I (st m) → Q (st (m + 1)))
    (h0 : I (st n)) : ∃ m, n ≤ m ∧ Q (st m) :=
  hf.step h p I Q (fun hI k => ⟨max n k, Nat.le_max_right _ _, hready _ (Nat.le_max_left _ _) (hI _ (Nat.le_max_left _ _))⟩)
    hkeep hown h0

/-- A goroutine whose operations use up a measure that nothing increases is not ready for ever. -/
theorem Fair.stops' (hf : Fair P st act) (h : Exec P st act) (p : Proc) (f : State → Nat) {n : Nat}
    (hcost : ∀ m, n ≤ m → ∀ a, act m = .some a → Trans P (st m) a (st (m + 1)) →
      (if a.by p = true then 1 else 0) + f (st (m + 1)) ≤ f (st m)) :
    ∃ k, n ≤ k ∧ ∀ m, k ≤ m → ¬ CanGo P (st m) p ∧ ∀ a, act m = .some a → a.by p = false := by
  -- the measure has a least value
  have hmono : ∀ m, n ≤ m → f (st (m + 1)) ≤ f (st m) := fun m hm => by
    rcases h.trans m with ⟨_, h2⟩ | ⟨a, h1, h2⟩
    · rw [h2]; exact Nat.le_refl _
    · have := hcost m hm a h1 h2; omega
  have hleast : ∀ N, ∀ k, n ≤ k → f (st k) ≤ N → ∃ k', k ≤ k' ∧ ∀ m, k' ≤ m → f (st m) = f (st k') := by
    intro N
    induction N with
    | zero =>
      intro k hk h0
      refine ⟨k, Nat.le_refl _, fun m hm => ?_⟩
      have : f (st m) ≤ f (st k) := by
        induction hm with
        | refl => exact Nat.le_refl _
        | @step m hm ih => exact Nat.le_trans (hmono m (Nat.le_trans hk hm)) ih
      omega
    | succ N ih =>
      intro k hk h0
      by_cases hx : ∃ m, k ≤ m ∧ f (st m) ≠ f (st k)
      · obtain ⟨m, hm, hne⟩ := hx
        have : f (st m) ≤ f (st k) := by
          clear hne
          induction hm with
          | refl => exact Nat.le_refl _
          | @step m hm ih => exact Nat.le_trans (hmono m (Nat.le_trans hk hm)) ih
        obtain ⟨k', h1, h2⟩ := ih m (by omega) (by omega)
        exact ⟨k', by omega, h2⟩
      · exact ⟨k, Nat.le_refl _, fun m hm => Classical.byContradiction fun hne => hx ⟨m, hm, hne⟩⟩
  obtain ⟨k, hk, hconst⟩ := hleast _ n (Nat.le_refl _) (Nat.le_refl _)
  have hno : ∀ m, k ≤ m → ∀ a, act m = .some a → a.by p = false := fun m hm a ha => by
    have := hcost m (by omega) a ha (step_trans (h.some m a ha))
    have h1 := hconst m hm
    have h2 := hconst (m + 1) (by omega)
    cases hb : a.by p
    · rfl
    · rw [hb] at this; simp at this; omega
  -- if it were ready again and again, it would go on
  by_cases hr : ∃ k', k ≤ k' ∧ ∀ m, k' ≤ m → ¬ CanGo P (st m) p
  · obtain ⟨k', h1, h2⟩ := hr
    exact ⟨k', by omega, fun m hm => ⟨h2 m hm, hno m (by omega)⟩⟩
  · exfalso
    obtain ⟨m, a, h1, h2, h3⟩ := hf p (fun j => by
      refine Classical.byContradiction fun hx => hr ⟨max k j, Nat.le_max_left _ _, fun m hm hrd => hx ⟨m, ?_, hrd⟩⟩
      exact Nat.le_trans (Nat.le_max_right _ _) hm) k
    rw [hno m h1 a h2] at h3
    cases h3

theorem Fair.stops (hf : Fair P st act) (h : Exec P st act) (p : Proc) (f : State → Nat) {n : Nat}
    (hcost : ∀ m, n ≤ m → ∀ a, Trans P (st m) a (st (m + 1)) →
      (if a.by p = true then 1 else 0) + f (st (m + 1)) ≤ f (st m)) :
    ∃ k, n ≤ k ∧ ∀ m, k ≤ m → ¬ CanGo P (st m) p ∧ ∀ a, act m = .some a → a.by p = false :=
  hf.stops' h p f fun m hm a _ ht => hcost m hm a ht

/-! ### Calls of `Do` -/

/-- The operations of others leave a call where it is. -/
theorem Trans.pc {s s' : State} {a : Act} (ht : Trans P s a s') {c : Nat} (ha : a.by (.call c) = false)
    (hp : (s.calls c).pc ≠ .absent) : (s'.calls c).pc = (s.calls c).pc := by
  cases ht <;> simp only [Act.by, beq_eq_false_iff_ne] at ha <;> simp only [State.set] <;> grind

theorem Fair.call (hf : Fair P st act) (h : Exec P st act) (c : Nat) (X : CPc) (Y : CPc → Prop) {n : Nat}
    (hX : X ≠ .absent) (hready : (∀ m, n ≤ m → ((st m).calls c).pc = X) → ∀ k, ∃ m, k ≤ m ∧ CanGo P (st m) (.call c))
    (hown : ∀ m, n ≤ m → ∀ a, a.by (.call c) = true → Trans P (st m) a (st (m + 1)) → ((st m).calls c).pc = X →
      Y ((st (m + 1)).calls c).pc)
    (h0 : ((st n).calls c).pc = X) : ∃ m, n ≤ m ∧ Y ((st m).calls c).pc := by
  refine hf.step h (.call c) (fun s => (s.calls c).pc = X) (fun s => Y (s.calls c).pc) hready ?_ hown h0
  intro m hm a ht hi
  cases ha : a.by (.call c) with
  | true => exact .inr (hown m hm a ha ht hi)
  | false => exact .inl (by rw [ht.pc ha (by rw [hi]; exact hX)]; exact hi)

/-- The same where the next operation is possible. -/
theorem Fair.callReady (hf : Fair P st act) (h : Exec P st act) (hc : ∀ n, (st n).crashed = false) (c : Nat) (X : CPc)
    (Y : CPc → Prop) {n : Nat} (hX : X ≠ .absent) (hready : ∀ s : State, (s.calls c).pc = X → (callStep s c).isSome)
    (hown : ∀ s a s', a.by (.call c) = true → Trans P s a s' → (s.calls c).pc = X → Y (s'.calls c).pc)
    (h0 : ((st n).calls c).pc = X) : ∃ m, n ≤ m ∧ Y ((st m).calls c).pc :=
  hf.call h c X Y hX (fun hI k => ⟨max n k, Nat.le_max_right _ _, .inl (by
    rw [step_call (hc _)]; exact hready _ (hI _ (Nat.le_max_left _ _)))⟩)
    (fun m _ a ha ht hi => hown _ a _ ha ht hi) h0

/-- Closed is closed. -/
theorem Trans.rawClosed {s s' : State} {a : Act} (ht : Trans P s a s') (h : s.rawClosed = true) : s'.rawClosed = true := by
  cases ht <;> simp_all [State.set]

theorem Trans.cancelled {s s' : State} {a : Act} (ht : Trans P s a s') (h : s.cancelled = true) : s'.cancelled = true := by
  cases ht <;> simp_all [State.set]

theorem Exec.rawClosed (h : Exec P st act) {n : Nat} (hr : (st n).rawClosed = true) :
    ∀ m, n ≤ m → (st m).rawClosed = true := h.keep (I := fun s => s.rawClosed = true) (fun _ _ _ _ ht => ht.rawClosed) hr

theorem Exec.cancelled (h : Exec P st act) {n : Nat} (hr : (st n).cancelled = true) :
    ∀ m, n ≤ m → (st m).cancelled = true := h.keep (I := fun s => s.cancelled = true) (fun _ _ _ _ ht => ht.cancelled) hr

theorem Fair.runlock (hf : Fair P st act) (h : Exec P st act) (hc : ∀ n, (st n).crashed = false) {n c : Nat}
    (h0 : ((st n).calls c).pc = .runlock) : ∃ m, n ≤ m ∧ ((st m).calls c).pc = .wlock :=
  hf.callReady h hc c .runlock (· = .wlock) (by simp) (by intro s hp; simp [callStep, hp])
    (by intro s a s' ha ht hp; cases ht <;> simp_all [Act.by, Act.ofMessage, State.set]) h0

theorem Fair.insert (hf : Fair P st act) (h : Exec P st act) (hc : ∀ n, (st n).crashed = false) {n c : Nat}
    (h0 : ((st n).calls c).pc = .insert) : ∃ m, n ≤ m ∧ ((st m).calls c).pc = .wlock := by
  obtain ⟨m, hm, hp⟩ := hf.callReady h hc c .insert (· = .runlock) (by simp) (by intro s hp; simp [callStep, hp])
    (by intro s a s' ha ht hp; cases ht <;> simp_all [Act.by, Act.ofMessage, State.set]) h0
  obtain ⟨m', hm', hp'⟩ := hf.runlock h hc hp
  exact ⟨m', Nat.le_trans hm hm', hp'⟩

/-! ### The locks are given back -/

theorem ring_idle {N : Nat} {a : Ring.Action} {r r' : Ring.State} (ha : inRing a = true) (hr : a.ofReader = true)
    (hi : r.rpc = .idle) : Ring.step N a r ≠ some r' := by
  cases a <;> simp [inRing] at ha <;> simp [Ring.Action.ofReader] at hr <;> simp [Ring.step, Ring.rStep, hi]

/-- The operations of others leave `messageLoop` where it is. -/
theorem Trans.mpc {s s' : State} {a : Act} (ht : Trans P s a s') (ha : a.ofMessage = false) : s'.mpc = s.mpc := by
  cases ht <;> simp_all [Act.ofMessage, State.set]

/-- `messageLoop` gives `readLock` back. -/
theorem Fair.loopR (hP : 4 ≤ P.buf) (hf : Fair P st act) (h : Exec P st act) (hc : ∀ n, (st n).crashed = false) {n : Nat}
    (h0 : (st n).readLock = some .loop) : ∃ m, n ≤ m ∧ (st m).readLock = none := by
  have move : ∀ (X : MPc) (Q : State → Prop), X.holdsR = true →
      (∀ s s', Trans P s .message s' → s.mpc = X → Q s') → ∀ n, (st n).mpc = X → ∃ m, n ≤ m ∧ Q (st m) := by
    intro X Q hX hQ n h0
    have own : ∀ m, n ≤ m → ∀ a, a.by .message = true → Trans P (st m) a (st (m + 1)) → (st m).mpc = X → Q (st (m + 1)) := by
      intro m hm a ha ht hi
      have hidle : (st m).ring.rpc = .idle := (((h.reach m).stream hP).out (by
        intro size; rw [hi]; constructor <;> (rintro rfl; simp [MPc.holdsR] at hX))).1
      cases a <;> simp [Act.by, Act.ofMessage] at ha
      case message => exact hQ _ _ ht hi
      case ring a =>
        generalize st (m + 1) = s' at ht
        cases ht with
        | ring _ r hin hst => exact absurd hst (ring_idle hin ha hidle)
        | full hfull => simp [full, hidle] at hfull
    refine hf.stepReady h .message (fun s => s.mpc = X) Q ?_ ?_ own h0
    · intro m hm hi
      refine ⟨.message, rfl, ?_⟩
      rw [step_message (hc m)]
      cases X <;> simp [MPc.holdsR] at hX <;> simp [messageStep, hi]
      split <;> simp
    · intro m hm a ht hi
      cases ha : a.ofMessage with
      | true => exact .inr (own m hm a ha ht hi)
      | false => exact .inl (by rw [ht.mpc ha]; exact hi)
  have rul : ∀ n d c, (st n).mpc = .runlock d c → ∃ m, n ≤ m ∧ (st m).readLock = none := by
    intro n d c hp
    refine move (.runlock d c) (fun s => s.readLock = none) rfl (fun s s' ht hi => ?_) n hp
    cases ht <;> simp_all
  have del : ∀ n id d c, (st n).mpc = .delete id d c → ∃ m, n ≤ m ∧ (st m).readLock = none := by
    intro n id d c hp
    obtain ⟨m, hm, d, c, hp'⟩ := move (.delete id d c) (fun s => ∃ d c, s.mpc = .runlock d c) rfl (fun s s' ht hi => by
      cases ht <;> simp_all) n hp
    obtain ⟨m', hm', hp''⟩ := rul m _ _ hp'
    exact ⟨m', Nat.le_trans hm hm', hp''⟩
  have hl := (h.reach n).locks.loopR.2 h0
  cases hp : (st n).mpc <;> simp [hp, MPc.holdsR] at hl
  case lookup id d =>
    obtain ⟨m, hm, id, d, c, hp'⟩ := move (.lookup id d) (fun s => ∃ id d c, s.mpc = .delete id d c) rfl (fun s s' ht hi => by
      cases ht <;> simp_all) n hp
    obtain ⟨m', hm', hp''⟩ := del m _ _ _ hp'
    exact ⟨m', Nat.le_trans hm hm', hp''⟩
  case delete id d c => exact del n _ _ _ hp
  case runlock d c => exact rul n _ _ hp

/-- A call gives `readLock` back. -/
theorem Fair.callR (hf : Fair P st act) (h : Exec P st act) (hc : ∀ n, (st n).crashed = false) {n c : Nat}
    (h0 : (st n).readLock = some (.call c)) : ∃ m, n ≤ m ∧ (st m).readLock = none := by
  have run : ∀ n, ((st n).calls c).pc = .runlock → ∃ m, n ≤ m ∧ (st m).readLock = none := by
    intro n hp
    refine hf.stepReady h (.call c) (fun s => (s.calls c).pc = .runlock) (fun s => s.readLock = none)
      (fun m _ hi => .inl (by rw [step_call (hc m)]; simp [callStep, hi])) ?_ ?_ hp
    · intro m _ a ht hi
      cases ha : a.by (.call c) with
      | true => refine .inr ?_; generalize st (m + 1) = s' at ht; cases ht <;> simp_all [Act.by, Act.ofMessage, State.set]
      | false => exact .inl (by rw [ht.pc ha (by simp [hi])]; exact hi)
    · intro m _ a ha ht hi
      generalize st (m + 1) = s' at ht
      cases ht <;> simp_all [Act.by, Act.ofMessage, State.set]
  have hl := ((h.reach n).locks.callR c).2 h0
  cases hp : ((st n).calls c).pc <;> simp [hp, CPc.holdsR] at hl
  case insert =>
    obtain ⟨m, hm, hp'⟩ := hf.callReady h hc c .insert (· = .runlock) (by simp) (by intro s hp; simp [callStep, hp])
      (by intro s a s' ha ht hp; cases ht <;> simp_all [Act.by, Act.ofMessage, State.set]) hp
    obtain ⟨m', hm', hp''⟩ := run m hp'
    exact ⟨m', Nat.le_trans hm hm', hp''⟩
  case runlock => exact run n hp

/-- `readLock` is always free again. -/
theorem Fair.freeR (hP : 4 ≤ P.buf) (hf : Fair P st act) (h : Exec P st act) (hc : ∀ n, (st n).crashed = false) (n : Nat) :
    ∃ m, n ≤ m ∧ (st m).readLock = none := by
  match hl : (st n).readLock with
  | none => exact ⟨n, Nat.le_refl n, hl⟩
  | some .loop => exact hf.loopR hP h hc hl
  | some (.call c) => exact hf.callR h hc hl

/-- The connection being closed, a call at the writer gets past it. -/
theorem Fair.write (hf : Fair P st act) (h : Exec P st act) (hc : ∀ n, (st n).crashed = false) {n c : Nat}
    (hr : (st n).rawClosed = true) (h0 : ((st n).calls c).pc.holdsW = true) :
    ∃ m, n ≤ m ∧ ∃ r, ((st m).calls c).pc = .wunlock r := by
  have wri : ∀ n rest, (st n).rawClosed = true → ((st n).calls c).pc = .writing rest →
      ∃ m, n ≤ m ∧ ∃ r, ((st m).calls c).pc = .wunlock r := by
    intro n rest hr hp
    refine hf.call h c (.writing rest) (fun x => ∃ r, x = .wunlock r) (by simp) (fun hI k => ?_) ?_ hp
    · refine ⟨max n k, Nat.le_max_right _ _, ?_⟩
      have h1 := hI _ (Nat.le_max_left n k)
      have h2 := h.rawClosed hr _ (Nat.le_max_left n k)
      cases rest with
      | nil => exact .inl (by rw [step_call (hc _)]; simp [callStep, h1])
      | cons b bs => exact .inr ⟨h2, ⟨0⟩, by simp [Conn.step, hc, h1]⟩
    · intro m hm a ha ht hi
      have h2 := h.rawClosed hr _ hm
      generalize st (m + 1) = s' at ht
      cases ht <;> simp_all [Act.by, Act.ofMessage, State.set]
  cases hp : ((st n).calls c).pc <;> simp [hp, CPc.holdsW] at h0
  case encode =>
    obtain ⟨m, hm, h1⟩ := hf.callReady h hc c .encode (fun x => (∃ r, x = .wunlock r) ∨ ∃ rest, x = .writing rest) (by simp)
      (by intro s hp; simp only [callStep, hp]; split <;> rfl)
      (by intro s a s' ha ht hp; cases ht <;> simp_all [Act.by, Act.ofMessage, State.set]) hp
    rcases h1 with h1 | ⟨rest, h1⟩
    · exact ⟨m, hm, h1⟩
    · obtain ⟨m', hm', h2⟩ := wri m rest (h.rawClosed hr m hm) h1
      exact ⟨m', Nat.le_trans hm hm', h2⟩
  case writing rest => exact wri n rest hr hp
  case wunlock r => exact ⟨n, Nat.le_refl n, r, hp⟩

/-- From `n` on, a call at the writer gets past it. -/
def Passes (st : Nat → State) (n : Nat) : Prop :=
  ∀ m, n ≤ m → ∀ c, ((st m).calls c).pc.holdsW = true → ∃ m', m ≤ m' ∧ ∃ r, ((st m').calls c).pc = .wunlock r

/-- Then `writeLock` is always free again. -/
theorem Fair.freeW (hf : Fair P st act) (h : Exec P st act) (hc : ∀ n, (st n).crashed = false) {n : Nat}
    (hw : Passes st n) : ∃ m, n ≤ m ∧ (st m).writeLock = none := by
  match hl : (st n).writeLock with
  | none => exact ⟨n, Nat.le_refl n, hl⟩
  | some c =>
    obtain ⟨m, hm, r, hp⟩ := hw n (Nat.le_refl n) c (((h.reach n).locks.callW c).2 hl)
    have own : ∀ k, m ≤ k → ∀ a, a.by (.call c) = true → Trans P (st k) a (st (k + 1)) → ((st k).calls c).pc = .wunlock r →
        (st (k + 1)).writeLock = none := by
      intro k _ a ha ht hi
      generalize st (k + 1) = s' at ht
      cases ht <;> simp_all [Act.by, Act.ofMessage, State.set]
    obtain ⟨m', hm', h'⟩ := hf.stepReady h (.call c) (fun s => (s.calls c).pc = .wunlock r) (fun s => s.writeLock = none)
      (fun m _ hi => .inl (by rw [step_call (hc m)]; cases r <;> simp [callStep, hi]))
      (fun k hk a ht hi => by
        cases ha : a.by (.call c) with
        | true => exact .inr (own k hk a ha ht hi)
        | false => exact .inl (by rw [ht.pc ha (by simp [hi])]; exact hi)) own hp
    exact ⟨m', Nat.le_trans hm hm', h'⟩

theorem Passes.mono {n m : Nat} (h : Passes st n) (hm : n ≤ m) : Passes st m :=
  fun j hj => h j (Nat.le_trans hm hj)

/-- Then every call comes to wait for its reply or returns. -/
theorem Fair.ends (hP : 4 ≤ P.buf) (hf : Fair P st act) (h : Exec P st act) (hc : ∀ n, (st n).crashed = false) {n c : Nat}
    (hw : Passes st n) (h0 : ((st n).calls c).pc ≠ .absent) :
    ∃ m, n ≤ m ∧ (((st m).calls c).pc = .recv ∨ ∃ o, ((st m).calls c).pc = .done o) := by
  have unl : ∀ n, n ≤ n → ∀ r, ((st n).calls c).pc = .wunlock r →
      ∃ m, n ≤ m ∧ (((st m).calls c).pc = .recv ∨ ∃ o, ((st m).calls c).pc = .done o) := by
    intro n _ r hp
    exact hf.callReady h hc c (.wunlock r) (fun x => x = .recv ∨ ∃ o, x = .done o) (by simp)
      (by intro s hp; cases r <;> simp [callStep, hp])
      (by intro s a s' ha ht hp; cases ht <;> simp_all [Act.by, Act.ofMessage, State.set]) hp
  have wr : ∀ m, n ≤ m → ((st m).calls c).pc.holdsW = true →
      ∃ m', m ≤ m' ∧ (((st m').calls c).pc = .recv ∨ ∃ o, ((st m').calls c).pc = .done o) := by
    intro m hm hp
    obtain ⟨m1, h1, r, h2⟩ := hw m hm c hp
    obtain ⟨m2, h3, h4⟩ := unl m1 (Nat.le_refl _) r h2
    exact ⟨m2, Nat.le_trans h1 h3, h4⟩
  have wl : ∀ m, n ≤ m → ((st m).calls c).pc = .wlock →
      ∃ m', m ≤ m' ∧ (((st m').calls c).pc = .recv ∨ ∃ o, ((st m').calls c).pc = .done o) := by
    intro m hm hp
    obtain ⟨m1, h1, h2⟩ := hf.call h c .wlock (· = .encode) (by simp) (fun hI k => by
        obtain ⟨m', h1, h2⟩ := hf.freeW h hc (n := max m k) (hw.mono (Nat.le_trans hm (Nat.le_max_left _ _)))
        refine ⟨m', Nat.le_trans (Nat.le_max_right _ _) h1, .inl ?_⟩
        rw [step_call (hc _)]
        simp [callStep, hI m' (Nat.le_trans (Nat.le_max_left _ _) h1), h2])
      (by
        intro m _ a ha ht hi
        generalize st (m + 1) = s' at ht
        cases ht <;> simp_all [Act.by, Act.ofMessage, State.set]) hp
    obtain ⟨m2, h3, h4⟩ := wr m1 (Nat.le_trans hm h1) (by rw [h2]; rfl)
    exact ⟨m2, Nat.le_trans h1 h3, h4⟩
  have ins : ∀ m, n ≤ m → ((st m).calls c).pc = .insert →
      ∃ m', m ≤ m' ∧ (((st m').calls c).pc = .recv ∨ ∃ o, ((st m').calls c).pc = .done o) := by
    intro m hm hp
    obtain ⟨m1, h1, h2⟩ := hf.insert h hc hp
    obtain ⟨m2, h3, h4⟩ := wl m1 (Nat.le_trans hm h1) h2
    exact ⟨m2, Nat.le_trans h1 h3, h4⟩
  have rl : ∀ m, n ≤ m → ((st m).calls c).pc = .rlock →
      ∃ m', m ≤ m' ∧ (((st m').calls c).pc = .recv ∨ ∃ o, ((st m').calls c).pc = .done o) := by
    intro m hm hp
    obtain ⟨m1, h1, h2⟩ := hf.call h c .rlock (· = .insert) (by simp) (fun hI k => by
        obtain ⟨m', h1, h2⟩ := hf.freeR hP h hc (max m k)
        refine ⟨m', Nat.le_trans (Nat.le_max_right _ _) h1, .inl ?_⟩
        rw [step_call (hc _)]
        simp [callStep, hI m' (Nat.le_trans (Nat.le_max_left _ _) h1), h2])
      (by
        intro m _ a ha ht hi
        generalize st (m + 1) = s' at ht
        cases ht <;> simp_all [Act.by, Act.ofMessage, State.set]) hp
    obtain ⟨m2, h3, h4⟩ := ins m1 (Nat.le_trans hm h1) h2
    exact ⟨m2, Nat.le_trans h1 h3, h4⟩
  cases hp : ((st n).calls c).pc with
  | absent => exact absurd hp h0
  | add =>
    obtain ⟨m1, h1, h2⟩ := hf.callReady h hc c .add (· = .rlock) (by simp) (by intro s hp; simp [callStep, hp])
      (by intro s a s' ha ht hp; cases ht <;> simp_all [Act.by, Act.ofMessage, State.set]) hp
    obtain ⟨m2, h3, h4⟩ := rl m1 h1 h2
    exact ⟨m2, Nat.le_trans h1 h3, h4⟩
  | rlock => exact rl n (Nat.le_refl _) hp
  | insert => exact ins n (Nat.le_refl _) hp
  | runlock =>
    obtain ⟨m1, h1, h2⟩ := hf.runlock h hc hp
    obtain ⟨m2, h3, h4⟩ := wl m1 h1 h2
    exact ⟨m2, Nat.le_trans h1 h3, h4⟩
  | wlock => exact wl n (Nat.le_refl _) hp
  | encode => exact wr n (Nat.le_refl _) (by rw [hp]; rfl)
  | writing rest => exact wr n (Nat.le_refl _) (by rw [hp]; rfl)
  | wunlock r => exact unl n (Nat.le_refl _) r hp
  | recv => exact ⟨n, Nat.le_refl _, .inl hp⟩
  | done o => exact ⟨n, Nat.le_refl _, .inr ⟨o, hp⟩⟩

/-- The connection being closed, calls get past the writer. -/
theorem Fair.passes (hf : Fair P st act) (h : Exec P st act) (hc : ∀ n, (st n).crashed = false) {n : Nat}
    (hr : (st n).rawClosed = true) : Passes st n :=
  fun m hm _ hp => hf.write h hc (h.rawClosed hr m hm) hp

/-- A `raw.Write` that is going on takes some bytes or fails. -/
def Takes (st : Nat → State) (act : Nat → Option Act) : Prop :=
  ∀ n c rest, ((st n).calls c).pc = .writing rest → rest ≠ [] → ∃ m a, n ≤ m ∧ act m = .some a ∧ a.by (.call c) = true

/-- Then calls get past the writer, too. -/
theorem Fair.accepts (hf : Fair P st act) (h : Exec P st act) (hc : ∀ n, (st n).crashed = false) (hac : Takes st act)
    (n : Nat) : Passes st n := by
  intro m _ c h0
  have wri : ∀ (l : Nat) m rest, rest.length ≤ l → ((st m).calls c).pc = .writing rest →
      ∃ m', m ≤ m' ∧ ∃ r, ((st m').calls c).pc = .wunlock r := by
    intro l
    induction l with
    | zero =>
      intro m rest hl hp
      obtain rfl : rest = [] := List.eq_nil_of_length_eq_zero (by omega)
      exact hf.callReady h hc c (.writing []) (fun x => ∃ r, x = .wunlock r) (by simp) (by intro s hp; simp [callStep, hp])
        (by intro s a s' ha ht hp; cases ht <;> simp_all [Act.by, Act.ofMessage, State.set]) hp
    | succ l ih =>
      intro m rest hl hp
      by_cases hn : rest = []
      · exact ih m rest (by simp [hn]) hp
      -- the next operation of the call
      have own : ∀ j a, a.by (.call c) = true → Trans P (st j) a (st (j + 1)) → ((st j).calls c).pc = .writing rest →
          (∃ r, ((st (j + 1)).calls c).pc = .wunlock r) ∨
          ∃ rest', rest'.length ≤ l ∧ ((st (j + 1)).calls c).pc = .writing rest' := by
        intro j a ha ht hi
        generalize st (j + 1) = s' at ht
        cases ht <;> simp_all [Act.by, Act.ofMessage, State.set]
        omega
      by_cases hq : ∃ j, m ≤ j ∧ ((∃ r, ((st j).calls c).pc = .wunlock r) ∨
          ∃ rest', rest'.length ≤ l ∧ ((st j).calls c).pc = .writing rest')
      · obtain ⟨j, hj, h1 | ⟨rest', h1, h2⟩⟩ := hq
        · exact ⟨j, hj, h1⟩
        · obtain ⟨m', hm', h3⟩ := ih j rest' h1 h2
          exact ⟨m', Nat.le_trans hj hm', h3⟩
      · have hI : ∀ j, m ≤ j → ((st j).calls c).pc = .writing rest :=
          h.keep (I := fun s => (s.calls c).pc = .writing rest) (fun j hj a _ ht hi => by
            cases ha : a.by (.call c) with
            | true => exact absurd ⟨j + 1, by omega, own j a ha ht hi⟩ hq
            | false => rw [ht.pc ha (by simp [hi])]; exact hi) hp
        obtain ⟨j, a, hj, h1, h2⟩ := hac m c rest hp hn
        exact absurd ⟨j + 1, by omega, own j a h2 (step_trans (h.some j a h1)) (hI j hj)⟩ hq
  cases hp : ((st m).calls c).pc <;> simp [hp, CPc.holdsW] at h0
  case encode =>
    obtain ⟨m1, hm1, h1⟩ := hf.callReady h hc c .encode (fun x => (∃ r, x = .wunlock r) ∨ ∃ rest, x = .writing rest) (by simp)
      (by intro s hp; simp only [callStep, hp]; split <;> rfl)
      (by intro s a s' ha ht hp; cases ht <;> simp_all [Act.by, Act.ofMessage, State.set]) hp
    rcases h1 with h1 | ⟨rest, h1⟩
    · exact ⟨m1, hm1, h1⟩
    · obtain ⟨m', hm', h2⟩ := wri _ m1 rest (Nat.le_refl _) h1
      exact ⟨m', Nat.le_trans hm1 hm', h2⟩
  case writing rest => exact wri _ m rest (Nat.le_refl _) hp
  case wunlock r => exact ⟨m, Nat.le_refl m, r, hp⟩

/-- Whatever the network does, a call is registered and comes to wait for `writeLock`. -/
theorem Fair.registers (hP : 4 ≤ P.buf) (hf : Fair P st act) (h : Exec P st act) (hc : ∀ n, (st n).crashed = false) {n c : Nat}
    (h0 : ((st n).calls c).pc = .add) : ∃ m, n ≤ m ∧ ((st m).calls c).pc = .wlock := by
  obtain ⟨m1, h1, h2⟩ := hf.callReady h hc c .add (· = .rlock) (by simp) (by intro s hp; simp [callStep, hp])
    (by intro s a s' ha ht hp; cases ht <;> simp_all [Act.by, Act.ofMessage, State.set]) h0
  obtain ⟨m2, h3, h4⟩ := hf.call h c .rlock (· = .insert) (by simp) (fun hI k => by
      obtain ⟨m', h1, h2⟩ := hf.freeR hP h hc (max m1 k)
      refine ⟨m', Nat.le_trans (Nat.le_max_right _ _) h1, .inl ?_⟩
      rw [step_call (hc _)]
      simp [callStep, hI m' (Nat.le_trans (Nat.le_max_left _ _) h1), h2])
    (by
      intro m _ a ha ht hi
      generalize st (m + 1) = s' at ht
      cases ht <;> simp_all [Act.by, Act.ofMessage, State.set]) h2
  obtain ⟨m3, h5, h6⟩ := hf.insert h hc h4
  exact ⟨m3, by omega, h6⟩

/-! ### `Close` -/

/-- The operations of others leave a call of `Close` where it is. -/
theorem Trans.closers {s s' : State} {a : Act} (ht : Trans P s a s') {k : Nat} (ha : a.by (.close k) = false) :
    s'.closers k = s.closers k := by
  cases ht <;> simp only [Act.by, beq_eq_false_iff_ne] at ha <;> simp only [State.set] <;> grind

theorem Fair.closer (hf : Fair P st act) (h : Exec P st act) (hc : ∀ n, (st n).crashed = false) (k : Nat) (X Y : XPc) {n : Nat}
    (hX : X ≠ .absent) (hready : ∀ m, n ≤ m → (st m).closers k = X → (closeStep P (st m) k).isSome)
    (hown : ∀ s s', Trans P s (.close k) s' → s.closers k = X → s'.closers k = Y)
    (h0 : (st n).closers k = X) : ∃ m, n ≤ m ∧ (st m).closers k = Y := by
  have own : ∀ m, n ≤ m → ∀ a, a.by (.close k) = true → Trans P (st m) a (st (m + 1)) → (st m).closers k = X →
      (st (m + 1)).closers k = Y := by
    intro m _ a ha ht hi
    cases a <;> simp [Act.by] at ha
    subst ha
    exact hown _ _ ht hi
  refine hf.stepReady h (.close k) (fun s => s.closers k = X) (fun s => s.closers k = Y) (fun m hm hi => ⟨by simp [hi, hX], ?_⟩)
    (fun m hm a ht hi => ?_) own h0
  · simpa [Conn.step, hc] using hready m hm hi
  · cases ha : a.by (.close k) with
    | true => exact .inr (own m hm a ha ht hi)
    | false => exact .inl (by rw [ht.closers ha]; exact hi)

/-- When `raw` and the ring buffer are closed, `messageLoop` ends. -/
theorem Fair.messageEnds (hP : 4 ≤ P.buf) (hf : Fair P st act) (h : Exec P st act) (hc : ∀ n, (st n).crashed = false)
    {n : Nat} (hca : (st n).cancelled = true) (hcl : ∀ m, n ≤ m → (st m).ring.closed = true) :
    ∃ k, n ≤ k ∧ ∀ m, k ≤ m → (st m).mpc = .exited := by
  obtain ⟨k, hk, hk'⟩ := hf.stops h .message (mCost P) (n := n) (fun m hm a ht =>
    mCost_step (h.reach m).frames (h.cancelled hca m hm) (fun hi => ((h.reach m).stream hP).out hi |>.1) ht (hc _))
  refine ⟨k, hk, fun m hm => ?_⟩
  obtain ⟨m', hm', hfree⟩ := hf.freeR hP h hc m
  have hn : n ≤ m' := by omega
  have hkm : k ≤ m' := by omega
  have hex : (st m').mpc = .exited := by
    rcases message_enabled (h.reach m') (hc m') (hcl m' hn) (h.cancelled hca m' hn) with h1 | h1 | h1 | ⟨c, h1, _⟩
    · exact h1
    · exact absurd ⟨.message, rfl, h1⟩ (hk' m' hkm).1
    · exact absurd ⟨.ring .r, rfl, h1⟩ (hk' m' hkm).1
    · rw [hfree] at h1; cases h1
  -- it has not moved since
  have : ∀ j, m ≤ j → (st j).mpc = (st m).mpc := h.keep (I := fun s => s.mpc = (st m).mpc) (fun j hj a ha ht hi => by
    rw [ht.mpc ((hk' j (by omega)).2 a ha)]; exact hi) rfl
  rw [← this m' hm', hex]

theorem Trans.lpc {s s' : State} {a : Act} (ht : Trans P s a s') (ha : a.ofRead = false) : s'.lpc = s.lpc := by
  cases ht <;> simp_all [Act.ofRead, State.set]

/-- When `raw` and the ring buffer are closed, `readLoop` ends. -/
theorem Fair.readEnds (hf : Fair P st act) (h : Exec P st act) (hc : ∀ n, (st n).crashed = false)
    {n : Nat} (hr : (st n).rawClosed = true) (hcl : ∀ m, n ≤ m → (st m).ring.closed = true) :
    ∃ k, n ≤ k ∧ ∀ m, k ≤ m → (st m).lpc = .exited := by
  obtain ⟨k, hk, hk'⟩ := hf.stops h .read lCost (n := n) (fun m hm a ht =>
    lCost_step (h.rawClosed hr m hm) (h.reach m).writer ht)
  refine ⟨k, hk, fun m hm => ?_⟩
  have hrc := h.rawClosed hr m (by omega)
  rcases read_enabled (hc m) (hcl m (by omega)) with h1 | h1 | h1 | h1
  · exact h1
  · exact absurd ⟨⟨.readErr [], rfl, h1⟩, fun _ => hrc⟩ (hk' m hm).1
  · exact absurd ⟨⟨.readNext, rfl, h1⟩, fun _ => hrc⟩ (hk' m hm).1
  · exact absurd ⟨⟨.ring .w, rfl, h1⟩, fun _ => hrc⟩ (hk' m hm).1

theorem Trans.ringClosed {s s' : State} {a : Act} (ht : Trans P s a s') (hi : s.ring.closed = true) :
    s'.ring.closed = true := by
  by_cases hcl : a.isClose = true
  · cases ht <;> simp [Act.isClose] at hcl
    case rbClose k r _ hr => exact Ring.step_closed hr hi
    all_goals exact hi
  · exact (keeps_step ht (by simpa using hcl)).closed hi

/-- `Close` returns. -/
theorem Fair.closes (hP : 4 ≤ P.buf) (hf : Fair P st act) (h : Exec P st act) (hc : ∀ n, (st n).crashed = false)
    {n k : Nat} (h0 : (st n).closers k ≠ .absent) : ∃ m, n ≤ m ∧ (st m).closers k = .done := by
  -- past `raw.Close()` it stays past it
  have past : ∀ n, (st n).rawClosed = true ∧ (st n).cancelled = true ∧ (st n).ring.closed = true →
      ∀ m, n ≤ m → (st m).ring.closed = true := by
    intro n hn m hm
    exact h.keep (I := fun s => s.ring.closed = true) (fun j _ a _ ht => ht.ringClosed) hn.2.2 m hm
  have wrd : ∀ n, (st n).closers k = .waitRead → ∃ m, n ≤ m ∧ (st m).closers k = .done := by
    intro n hp
    have hcd := (h.reach n).closed
    have hn : (st n).rawClosed = true ∧ (st n).cancelled = true ∧ (st n).ring.closed = true :=
      ⟨hcd.raw k (by simp [hp]) (by simp [hp]) (by simp [hp]) (by simp [hp]), hcd.cancel k (by simp [hp]) (by simp [hp]),
       hcd.rb k (by simp [hp]) (by simp [hp]) (by simp [hp])⟩
    obtain ⟨j, hj, hj'⟩ := hf.readEnds h hc hn.1 (past n hn)
    by_cases hq : ∃ m, n ≤ m ∧ (st m).closers k = .done
    · exact hq
    have hI : ∀ m, n ≤ m → (st m).closers k = .waitRead := h.keep (I := fun s => s.closers k = .waitRead) (fun m hm a _ ht hi => by
      cases ha : a.by (.close k) with
      | false => rw [ht.closers ha]; exact hi
      | true =>
        cases a <;> simp [Act.by] at ha
        subst ha
        exact absurd ⟨m + 1, by omega, by
          generalize st (m + 1) = s' at ht
          cases ht <;> simp_all⟩ hq) hp
    obtain ⟨m, hm, hd⟩ := hf.closer h hc k .waitRead .done (by simp) (fun m hm hi => by
        simp [closeStep, hi, hj' m hm]) (fun s s' ht hi => by cases ht <;> simp_all) (hI j hj)
    exact ⟨m, by omega, hd⟩
  have wms : ∀ n, (st n).closers k = .waitMessage → ∃ m, n ≤ m ∧ (st m).closers k = .done := by
    intro n hp
    have hcd := (h.reach n).closed
    have hn : (st n).rawClosed = true ∧ (st n).cancelled = true ∧ (st n).ring.closed = true :=
      ⟨hcd.raw k (by simp [hp]) (by simp [hp]) (by simp [hp]) (by simp [hp]), hcd.cancel k (by simp [hp]) (by simp [hp]),
       hcd.rb k (by simp [hp]) (by simp [hp]) (by simp [hp])⟩
    obtain ⟨j, hj, hj'⟩ := hf.messageEnds hP h hc hn.2.1 (past n hn)
    by_cases hq : ∃ m, n ≤ m ∧ (st m).closers k = .waitRead
    · obtain ⟨m, hm, hp'⟩ := hq
      obtain ⟨m', hm', hd⟩ := wrd m hp'
      exact ⟨m', by omega, hd⟩
    have hI : ∀ m, n ≤ m → (st m).closers k = .waitMessage := h.keep (I := fun s => s.closers k = .waitMessage) (fun m hm a _ ht hi => by
      cases ha : a.by (.close k) with
      | false => rw [ht.closers ha]; exact hi
      | true =>
        cases a <;> simp [Act.by] at ha
        subst ha
        exact absurd ⟨m + 1, by omega, by
          generalize st (m + 1) = s' at ht
          cases ht <;> simp_all⟩ hq) hp
    obtain ⟨m, hm, hd⟩ := hf.closer h hc k .waitMessage .waitRead (by simp) (fun m hm hi => by
        simp [closeStep, hi, hj' m hm]) (fun s s' ht hi => by cases ht <;> simp_all) (hI j hj)
    exact absurd ⟨m, by omega, hd⟩ hq
  have raw : ∀ n, (st n).closers k = .rawClose → ∃ m, n ≤ m ∧ (st m).closers k = .done := by
    intro n hp
    obtain ⟨m, hm, h1⟩ := hf.closer h hc k .rawClose .waitMessage (by simp) (fun m hm hi => by simp [closeStep, hi])
      (fun s s' ht hi => by cases ht <;> simp_all) hp
    obtain ⟨m', hm', h2⟩ := wms m h1
    exact ⟨m', by omega, h2⟩
  have rb : ∀ n, (st n).closers k = .rbClose → ∃ m, n ≤ m ∧ (st m).closers k = .done := by
    intro n hp
    obtain ⟨m, hm, h1⟩ := hf.closer h hc k .rbClose .rawClose (by simp) (fun m hm hi => by simp [closeStep, hi, Ring.step])
      (fun s s' ht hi => by cases ht <;> simp_all) hp
    obtain ⟨m', hm', h2⟩ := raw m h1
    exact ⟨m', by omega, h2⟩
  cases hp : (st n).closers k with
  | absent => exact absurd hp h0
  | cancel =>
    obtain ⟨m, hm, h1⟩ := hf.closer h hc k .cancel .rbClose (by simp) (fun m hm hi => by simp [closeStep, hi])
      (fun s s' ht hi => by cases ht <;> simp_all) hp
    obtain ⟨m', hm', h2⟩ := rb m h1
    exact ⟨m', by omega, h2⟩
  | rbClose => exact rb n hp
  | rawClose => exact raw n hp
  | waitMessage => exact wms n hp
  | waitRead => exact wrd n hp
  | done => exact ⟨n, Nat.le_refl _, hp⟩

end

end Kafka.Conn
