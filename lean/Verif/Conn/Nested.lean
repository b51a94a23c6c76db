import Verif.Conn.Fair
/-!
Functions given to `Do` that use the connection themselves (gen.conn.go:150-153: `encode` and `decode` are any functions).

`encode` is run by the caller of `Do`, which holds `writeLock` (gen.conn.go:164-167); `decode` is run by `messageLoop`
(gen.conn.go:145).  While such a function is within a call of `Do` or `Close`, the goroutine that runs it does nothing else.
The machine of Verif.Conn.Model is the same; the schedules are those in which these goroutines wait.

Simplification: a function makes at most one call, before it does anything else.
-/
set_option linter.unusedSimpArgs false

namespace Kafka.Conn

open Kafka

/-- A call a function makes: a call of `Do` or one of `Close`. -/
inductive Inner where
  | do (j : Nat)
  | close (k : Nat)

/-- It has been made. -/
def Inner.made (s : State) : Inner → Prop
  | .do j => (s.calls j).pc ≠ .absent
  | .close k => s.closers k ≠ .absent

/-- It has returned. -/
def Inner.returned (s : State) : Inner → Prop
  | .do j => ∃ o, (s.calls j).pc = .done o
  | .close k => s.closers k = .done

/-- The action is the one that makes it. -/
def Inner.begins (s : State) : Inner → Act → Prop
  | .do j, .start c _ => c = j
  | .close k, .close i => i = k ∧ s.closers k = .absent
  | _, _ => False

/-- What an `encode` does other than writing to the encoder. -/
inductive Use where
  /-- it makes this call and waits for it -/
  | calls (i : Inner)
  /-- it panics, and the caller of `Do` recovers: the call of `Do` ends here, without line 167 -/
  | panics

/-- What the functions of the calls do.  (A `decode` that panics ends the program, see `Job.panics`.) -/
structure Uses where
  encode : Nat → Option Use := fun _ => none
  decode : Nat → Option Inner := fun _ => none

/-- The goroutine is in a function that has not got its call back. -/
def Waits (U : Uses) (s : State) : Proc → Prop
  | .call c => (s.calls c).pc = .encode ∧ (U.encode c = some .panics ∨ ∃ i, U.encode c = some (.calls i) ∧ ¬i.returned s)
  | .message => ∃ d c i, s.mpc = .decode d c ∧ U.decode c = some i ∧ ¬i.returned s
  | _ => False

/-- The action is possible with such functions: its goroutine does not wait in one, and the calls the functions make are
made by them. -/
structure Nested (U : Uses) (s : State) (a : Act) : Prop where
  free : ∀ p, a.by p = true → ¬Waits U s p
  encode : ∀ c i, U.encode c = some (.calls i) → i.begins s a → (s.calls c).pc = .encode
  decode : ∀ c i, U.decode c = some i → i.begins s a → ∃ d, s.mpc = .decode d c

/-- A goroutine that is ready again and again goes on again and again; `R` says what it is to be ready. -/
def FairR (R : State → Proc → Prop) (st : Nat → State) (act : Nat → Option Act) : Prop :=
  ∀ p, (∀ n, ∃ m, n ≤ m ∧ R (st m) p) → ∀ n, ∃ m a, n ≤ m ∧ act m = some a ∧ a.by p = true

/-- An infinite execution with such functions, in which nothing crashes and no goroutine is passed over for ever that could
go on and does not wait in a function. -/
structure Nests (P : Params) (U : Uses) (st : Nat → State) (act : Nat → Option Act) : Prop where
  exec : Exec P st act
  start : Reach P (Nested U) (st 0)
  nested : ∀ n a, act n = some a → Nested U (st n) a
  fair : FairR (fun s p => CanGo P s p ∧ ¬Waits U s p) st act
  crashed : ∀ n, (st n).crashed = false

section
variable {P : Params} {st : Nat → State} {act : Nat → Option Act} {R : State → Proc → Prop}

theorem FairR.step (hf : FairR R st act) (h : Exec P st act) (p : Proc) (I Q : State → Prop) {n : Nat}
    (hready : (∀ m, n ≤ m → I (st m)) → ∀ k, ∃ m, k ≤ m ∧ R (st m) p)
    (hkeep : ∀ m, n ≤ m → ∀ a, Trans P (st m) a (st (m + 1)) → I (st m) → I (st (m + 1)) ∨ Q (st (m + 1)))
    (hown : ∀ m, n ≤ m → ∀ a, a.by p = true → Trans P (st m) a (st (m + 1)) → I (st m) → Q (st (m + 1)))
    (h0 : I (st n)) : ∃ m, n ≤ m ∧ Q (st m) := by
  by_cases hq : ∃ m, n ≤ m ∧ Q (st m)
  · exact hq
  · have hI : ∀ m, n ≤ m → I (st m) := h.keep (fun m hm a _ ht hi =>
      (hkeep m hm a ht hi).resolve_right fun hq' => hq ⟨m + 1, by omega, hq'⟩) h0
    obtain ⟨m, a, hm, ha, hp⟩ := hf p (hready hI) n
    exact ⟨m + 1, by omega, hown m hm a hp (step_trans (h.some m a ha)) (hI m hm)⟩

/-- A goroutine whose operations use up a measure that nothing increases is not ready for ever. -/
theorem FairR.stops (hf : FairR R st act) (h : Exec P st act) (p : Proc) (f : State → Nat) {n : Nat}
    (hcost : ∀ m, n ≤ m → ∀ a, act m = .some a → Trans P (st m) a (st (m + 1)) →
      (if a.by p = true then 1 else 0) + f (st (m + 1)) ≤ f (st m)) :
    ∃ k, n ≤ k ∧ ∀ m, k ≤ m → ¬ R (st m) p ∧ ∀ a, act m = .some a → a.by p = false := by
  suffices hg : ∀ N n, f (st n) ≤ N → (∀ m, n ≤ m → ∀ a, act m = .some a → Trans P (st m) a (st (m + 1)) →
      (if a.by p = true then 1 else 0) + f (st (m + 1)) ≤ f (st m)) →
      ∃ k, n ≤ k ∧ ∀ m, k ≤ m → ∀ a, act m = .some a → a.by p = false by
    obtain ⟨k, h1, h2⟩ := hg _ n (Nat.le_refl _) hcost
    by_cases hr : ∃ k', k ≤ k' ∧ ∀ m, k' ≤ m → ¬R (st m) p
    · obtain ⟨k', h3, h4⟩ := hr
      exact ⟨k', by omega, fun m hm => ⟨h4 m hm, h2 m (by omega)⟩⟩
    · obtain ⟨m, a, h3, h4, h5⟩ := hf p (fun j => Classical.byContradiction fun hx =>
        hr ⟨max k j, Nat.le_max_left _ _, fun m hm hrd => hx ⟨m, by omega, hrd⟩⟩) k
      rw [h2 m h3 a h4] at h5
      cases h5
  intro N
  induction N with
  | zero =>
    intro n h0 hcost
    refine ⟨n, Nat.le_refl n, fun m hm a ha => ?_⟩
    have hz : ∀ m, n ≤ m → f (st m) = 0 := fun m hm => by
      induction hm with
      | refl => omega
      | @step m hm ih =>
        rcases h.trans m with ⟨_, h2⟩ | ⟨a, h1, h2⟩
        · rw [h2]; exact ih
        · have := hcost m hm a h1 h2
          show f (st (m + 1)) = 0
          omega
    have := hcost m hm a ha (step_trans (h.some m a ha))
    rw [hz m hm] at this
    cases hb : a.by p with
    | false => rfl
    | true => rw [if_pos hb] at this; omega
  | succ N ih =>
    intro n h0 hcost
    have hmono : ∀ m, n ≤ m → f (st m) ≤ f (st n) := fun m hm => by
      induction hm with
      | refl => exact Nat.le_refl _
      | @step m hm ih =>
        rcases h.trans m with ⟨_, h2⟩ | ⟨a, h1, h2⟩
        · rw [h2]; exact ih
        · have := hcost m hm a h1 h2
          show f (st (m + 1)) ≤ _
          omega
    by_cases hx : ∃ m a, n ≤ m ∧ act m = some a ∧ a.by p = true
    · obtain ⟨m, a, h1, h2, h3⟩ := hx
      have := hcost m h1 a h2 (step_trans (h.some m a h2))
      rw [if_pos h3] at this
      have := hmono m h1
      obtain ⟨k, h4, h5⟩ := ih (m + 1) (by omega) (fun m' hm' => hcost m' (by omega))
      exact ⟨k, by omega, h5⟩
    · exact ⟨n, Nat.le_refl n, fun m hm a ha => by
        cases hb : a.by p with
        | false => rfl
        | true => exact absurd ⟨m, a, hm, ha, hb⟩ hx⟩

/-- The operations between locking and unlocking `readLock`. -/
def rRank (s : State) : Nat :=
  match s.readLock with
  | none => 0
  | some .loop => match s.mpc with | .lookup _ _ => 3 | .delete _ _ _ => 2 | _ => 1
  | some (.call c) => match (s.calls c).pc with | .insert => 2 | _ => 1

/-- Who has `readLock` can go on. -/
theorem owner_canGo {s : State} (hl : Locks s) (hc : s.crashed = false) :
    (s.readLock = some .loop → CanGo P s .message) ∧ ∀ c, s.readLock = some (.call c) → CanGo P s (.call c) := by
  refine ⟨fun h => ?_, fun c h => ?_⟩
  · have := hl.loopR.2 h
    refine ⟨.message, rfl, ?_⟩
    rw [step_message hc]
    cases hm : s.mpc <;> simp [hm, MPc.holdsR] at this <;> simp only [messageStep, hm]
    · rfl
    · rfl
    · split <;> rfl
  · have := (hl.callR c).2 h
    refine .inl ?_
    rw [step_call hc]
    cases hp : (s.calls c).pc <;> simp [hp, CPc.holdsR] at this <;> simp [callStep, hp]

/-- `readLock` is always free again. -/
theorem FairR.freeR (hP : 4 ≤ P.buf) (hf : FairR R st act) (h : Exec P st act) (hc : ∀ n, (st n).crashed = false)
    (hm : ∀ m, CanGo P (st m) .message → (st m).mpc.holdsR = true → R (st m) .message)
    (hcl : ∀ m c, CanGo P (st m) (.call c) → ((st m).calls c).pc.holdsR = true → R (st m) (.call c)) (n : Nat) :
    ∃ m, n ≤ m ∧ (st m).readLock = none := by
  refine Classical.byContradiction fun hx => ?_
  have hx : ∀ m, n ≤ m → (st m).readLock ≠ none := fun m hm h => hx ⟨m, hm, h⟩
  obtain ⟨o, ho⟩ := Option.ne_none_iff_exists'.1 (hx n (Nat.le_refl n))
  have hsame : ∀ m, n ≤ m → (st m).readLock = some o := h.keep (I := fun s => s.readLock = some o)
    (fun m hm a _ ht hi => by
      have := hx (m + 1) (by omega)
      generalize st (m + 1) = s' at ht this
      cases ht <;> simp_all [State.set]) ho
  cases o with
  | loop =>
    obtain ⟨k, hk, h1⟩ := hf.stops h .message rRank (n := n) (fun m hm a _ ht => by
      have h1 := hsame m hm
      have h2 := hsame (m + 1) (by omega)
      have hh := (h.reach m).locks.loopR.2 h1
      have hidle : (st m).ring.rpc = .idle := (((h.reach m).stream hP).out (by
        intro size; constructor <;> (intro hi; simp [hi, MPc.holdsR] at hh))).1
      have h4 : a.by .message = true → a = .message := fun ha => by
        cases a <;> simp [Act.by, Act.ofMessage] at ha ⊢
        case ring a =>
          generalize st (m + 1) = s' at ht
          cases ht with
          | ring _ r hin hst => exact absurd hst (ring_idle hin ha hidle)
          | full hfull => simp [full, hidle] at hfull
      by_cases hb : a.by .message = true
      · obtain rfl := h4 hb
        generalize st (m + 1) = s' at ht h2
        cases ht <;> simp_all [rRank, Act.by, Act.ofMessage, MPc.holdsR]
      · have := ht.mpc (by simpa [Act.by] using hb)
        simp [rRank, h1, h2, this, hb])
    exact (h1 k (Nat.le_refl k)).1 (hm k ((owner_canGo (h.reach k).locks (hc k)).1 (hsame k hk))
      ((h.reach k).locks.loopR.2 (hsame k hk)))
  | call c =>
    obtain ⟨k, hk, h1⟩ := hf.stops h (.call c) rRank (n := n) (fun m hm a _ ht => by
      have h1 := hsame m hm
      have h2 := hsame (m + 1) (by omega)
      have hh := ((h.reach m).locks.callR c).2 h1
      by_cases hb : a.by (.call c) = true
      · generalize st (m + 1) = s' at ht h2
        cases ht <;> simp_all [rRank, Act.by, Act.ofMessage, CPc.holdsR, State.set]
      · have := ht.pc (c := c) (by simpa using hb) (by intro hi; simp [hi, CPc.holdsR] at hh)
        simp [rRank, h1, h2, this, hb])
    exact (h1 k (Nat.le_refl k)).1 (hcl k c ((owner_canGo (h.reach k).locks (hc k)).2 c (hsame k hk))
      (((h.reach k).locks.callR c).2 (hsame k hk)))

/-! ### `Close` -/

/-- The operations of `Close` left. -/
def XPc.rank : XPc → Nat
  | .absent => 6
  | .cancel => 5
  | .rbClose => 4
  | .rawClose => 3
  | .waitMessage => 2
  | .waitRead => 1
  | .done => 0

/-- `Close` returns if the loops are not kept waiting. -/
theorem FairR.closes (hP : 4 ≤ P.buf) (hf : FairR R st act) (h : Exec P st act) (hc : ∀ n, (st n).crashed = false)
    (hm : ∀ m, CanGo P (st m) .message → R (st m) .message)
    (hr : ∀ m, CanGo P (st m) .read → R (st m) .read)
    (hk : ∀ m k, CanGo P (st m) (.close k) → R (st m) (.close k))
    (hcl : ∀ m c, CanGo P (st m) (.call c) → ((st m).calls c).pc.holdsR = true → R (st m) (.call c))
    {n k : Nat} (h0 : (st n).closers k ≠ .absent) : ∃ m, n ≤ m ∧ (st m).closers k = .done := by
  refine Classical.byContradiction fun hx => ?_
  have hx : ∀ m, n ≤ m → (st m).closers k ≠ .done := fun m hm h => hx ⟨m, hm, h⟩
  have hpre : ∀ m, n ≤ m → (st m).closers k ≠ .absent := h.keep (I := fun s => s.closers k ≠ .absent)
    (fun m _ a _ ht hi => by
      generalize st (m + 1) = s' at ht
      cases ht <;> simp only [State.set] <;> grind) h0
  obtain ⟨j, hj, h1⟩ := hf.stops h (.close k) (fun s => (s.closers k).rank) (n := n) (fun m hm a _ ht => by
    by_cases hb : a.by (.close k) = true
    · cases a <;> simp [Act.by] at hb
      subst hb
      have := hpre m hm
      generalize st (m + 1) = s' at ht
      cases ht <;> simp_all [XPc.rank, Act.by]
    · simp [ht.closers (k := k) (by simpa using hb), hb])
  have hst : ∀ m, j ≤ m → ¬ CanGo P (st m) (.close k) := fun m hm hg => (h1 m hm).1 (hk m k hg)
  have hwait : ∀ m, j ≤ m → (st m).closers k = .waitMessage ∧ (st m).mpc ≠ .exited ∨
      (st m).closers k = .waitRead ∧ (st m).lpc ≠ .exited := fun m hm => by
    have h2 := hst m hm
    have h3 := hpre m (by omega)
    have h4 := hx m (by omega)
    simp only [CanGo, Conn.step, hc m] at h2
    cases hp : (st m).closers k <;> simp [closeStep, hp, Ring.step] at h2 h3 h4
    · left; refine ⟨rfl, fun he => ?_⟩; simp [he] at h2
    · right; refine ⟨rfl, fun he => ?_⟩; simp [he] at h2
  have hcd : ∀ m, j ≤ m → (st m).rawClosed = true ∧ (st m).cancelled = true ∧ (st m).ring.closed = true := fun m hm => by
    have hcd := (h.reach m).closed
    rcases hwait m hm with ⟨hp, _⟩ | ⟨hp, _⟩ <;>
    exact ⟨hcd.raw k (by simp [hp]) (by simp [hp]) (by simp [hp]) (by simp [hp]), hcd.cancel k (by simp [hp]) (by simp [hp]),
       hcd.rb k (by simp [hp]) (by simp [hp]) (by simp [hp])⟩
  -- `messageLoop` ends
  obtain ⟨i, hi, h2⟩ := hf.stops h .message (mCost P) (n := j) (fun m hm a _ ht =>
    mCost_step (h.reach m).frames (hcd m hm).2.1 (fun hi => ((h.reach m).stream hP).out hi |>.1) ht (hc _))
  obtain ⟨i', hi', hfree⟩ := hf.freeR hP h hc (fun m hg _ => hm m hg) hcl i
  have hex : (st i').mpc = .exited := by
    rcases message_enabled (h.reach i') (hc i') (hcd i' (by omega)).2.2 (hcd i' (by omega)).2.1 with h3 | h3 | h3 | ⟨c, h3, _⟩
    · exact h3
    · exact absurd (hm i' ⟨.message, rfl, h3⟩) (h2 i' (by omega)).1
    · exact absurd (hm i' ⟨.ring .r, rfl, h3⟩) (h2 i' (by omega)).1
    · rw [hfree] at h3; cases h3
  have hexs : ∀ m, i' ≤ m → (st m).mpc = .exited := h.keep (I := fun s => s.mpc = .exited) (fun m hm a ha ht hi => by
    rw [ht.mpc ((h2 m (by omega)).2 a ha)]; exact hi) hex
  -- `readLoop` ends
  obtain ⟨l, hl, h3⟩ := hf.stops h .read lCost (n := i') (fun m hm a _ ht =>
    lCost_step (hcd m (by omega)).1 (h.reach m).writer ht)
  have hrc := (hcd l (by omega)).1
  have hle : (st l).lpc = .exited := by
    rcases read_enabled (P := P) (hc l) (hcd l (by omega)).2.2 with h4 | h4 | h4 | h4
    · exact h4
    · exact absurd (hr l ⟨⟨.readErr [], rfl, h4⟩, fun _ => hrc⟩) (h3 l (Nat.le_refl l)).1
    · exact absurd (hr l ⟨⟨.readNext, rfl, h4⟩, fun _ => hrc⟩) (h3 l (Nat.le_refl l)).1
    · exact absurd (hr l ⟨⟨.ring .w, rfl, h4⟩, fun _ => hrc⟩) (h3 l (Nat.le_refl l)).1
  rcases hwait l (by omega) with ⟨_, h4⟩ | ⟨_, h4⟩
  · exact h4 (hexs l hl)
  · exact h4 hle

/-! ### `Do` -/

theorem FairR.call (hf : FairR R st act) (h : Exec P st act) (c : Nat) (X : CPc) (Y : CPc → Prop) {n : Nat}
    (hX : X ≠ .absent) (hready : (∀ m, n ≤ m → ((st m).calls c).pc = X) → ∀ k, ∃ m, k ≤ m ∧ R (st m) (.call c))
    (hown : ∀ s a s', a.by (.call c) = true → Trans P s a s' → (s.calls c).pc = X → Y (s'.calls c).pc)
    (h0 : ((st n).calls c).pc = X) : ∃ m, n ≤ m ∧ Y ((st m).calls c).pc := by
  refine hf.step h (.call c) (fun s => (s.calls c).pc = X) (fun s => Y (s.calls c).pc) hready ?_
    (fun m _ a ha ht hi => hown _ a _ ha ht hi) h0
  intro m hm a ht hi
  cases ha : a.by (.call c) with
  | true => exact .inr (hown _ a _ ha ht hi)
  | false => exact .inl (by rw [ht.pc ha (by rw [hi]; exact hX)]; exact hi)

theorem FairR.callReady (hf : FairR R st act) (h : Exec P st act) (hc : ∀ n, (st n).crashed = false)
    (c : Nat) (X : CPc) (hR : ∀ m, CanGo P (st m) (.call c) → ((st m).calls c).pc = X → R (st m) (.call c))
    (Y : CPc → Prop) {n : Nat} (hX : X ≠ .absent) (hready : ∀ s : State, (s.calls c).pc = X → (callStep s c).isSome)
    (hown : ∀ s a s', a.by (.call c) = true → Trans P s a s' → (s.calls c).pc = X → Y (s'.calls c).pc)
    (h0 : ((st n).calls c).pc = X) : ∃ m, n ≤ m ∧ Y ((st m).calls c).pc :=
  hf.call h c X Y hX (fun hI k => ⟨max n k, Nat.le_max_right _ _, hR _ (.inl (by
    rw [step_call (hc _)]; exact hready _ (hI _ (Nat.le_max_left _ _)))) (hI _ (Nat.le_max_left _ _))⟩) hown h0

/-- A call that has `writeLock` gives it back, if the network takes what is written. -/
theorem FairR.accepts (hf : FairR R st act) (h : Exec P st act) (hc : ∀ n, (st n).crashed = false) (hac : Takes st act)
    (hR : ∀ m c, CanGo P (st m) (.call c) → ((st m).calls c).pc ≠ .encode → R (st m) (.call c))
    (hE : ∀ n c, (∀ m, n ≤ m → ((st m).calls c).pc = .encode) → ∀ k, ∃ m, k ≤ m ∧ R (st m) (.call c)) (n c : Nat)
    (h0 : ((st n).calls c).pc.holdsW = true) :
    ∃ m, n ≤ m ∧ (((st m).calls c).pc = .recv ∨ ∃ o, ((st m).calls c).pc = .done o) := by
  have unl : ∀ m r, ((st m).calls c).pc = .wunlock r →
      ∃ m', m ≤ m' ∧ (((st m').calls c).pc = .recv ∨ ∃ o, ((st m').calls c).pc = .done o) := fun m r hp =>
    hf.callReady h hc c (.wunlock r) (fun m hg hx => hR m c hg (by simp [hx])) (fun x => x = .recv ∨ ∃ o, x = .done o) (by simp)
      (by intro s hp; cases r <;> simp [callStep, hp])
      (by intro s a s' ha ht hp; cases ht <;> simp_all [Act.by, Act.ofMessage, State.set]) hp
  have wri : ∀ (l : Nat) m rest, rest.length ≤ l → ((st m).calls c).pc = .writing rest →
      ∃ m', m ≤ m' ∧ ∃ r, ((st m').calls c).pc = .wunlock r := by
    intro l
    induction l with
    | zero =>
      intro m rest hl hp
      obtain rfl : rest = [] := List.eq_nil_of_length_eq_zero (by omega)
      exact hf.callReady h hc c (.writing []) (fun m hg hx => hR m c hg (by simp [hx])) (fun x => ∃ r, x = .wunlock r) (by simp)
        (by intro s hp; simp [callStep, hp])
        (by intro s a s' ha ht hp; cases ht <;> simp_all [Act.by, Act.ofMessage, State.set]) hp
    | succ l ih =>
      intro m rest hl hp
      by_cases hn : rest = []
      · exact ih m rest (by simp [hn]) hp
      have own : ∀ j a, a.by (.call c) = true → Trans P (st j) a (st (j + 1)) → ((st j).calls c).pc = .writing rest →
          (∃ r, ((st (j + 1)).calls c).pc = .wunlock r) ∨
          ∃ rest', rest'.length ≤ l ∧ ((st (j + 1)).calls c).pc = .writing rest' := by
        intro j a ha ht hi
        generalize st (j + 1) = s' at ht
        cases ht <;> simp_all [Act.by, Act.ofMessage, State.set]
        omega
      by_cases hq : ∃ j, m ≤ j ∧ ((∃ r, ((st j).calls c).pc = .wunlock r) ∨
          ∃ rest', rest'.length ≤ l ∧ ((st j).calls c).pc = .writing rest')
      · obtain ⟨j, hj, h1 | ⟨rest', h1, h2⟩⟩ := hq
        · exact ⟨j, hj, h1⟩
        · obtain ⟨m', hm', h3⟩ := ih j rest' h1 h2
          exact ⟨m', Nat.le_trans hj hm', h3⟩
      · have hI : ∀ j, m ≤ j → ((st j).calls c).pc = .writing rest :=
          h.keep (I := fun s => (s.calls c).pc = .writing rest) (fun j hj a _ ht hi => by
            cases ha : a.by (.call c) with
            | true => exact absurd ⟨j + 1, by omega, own j a ha ht hi⟩ hq
            | false => rw [ht.pc ha (by simp [hi])]; exact hi) hp
        obtain ⟨j, a, hj, h1, h2⟩ := hac m c rest hp hn
        exact absurd ⟨j + 1, by omega, own j a h2 (step_trans (h.some j a h1)) (hI j hj)⟩ hq
  have wri' : ∀ m rest, ((st m).calls c).pc = .writing rest →
      ∃ m', m ≤ m' ∧ (((st m').calls c).pc = .recv ∨ ∃ o, ((st m').calls c).pc = .done o) := fun m rest hp => by
    obtain ⟨m1, h1, r, h2⟩ := wri _ m rest (Nat.le_refl _) hp
    obtain ⟨m2, h3, h4⟩ := unl m1 r h2
    exact ⟨m2, by omega, h4⟩
  cases hp : ((st n).calls c).pc <;> simp [hp, CPc.holdsW] at h0
  case encode =>
    obtain ⟨m1, hm1, h1⟩ := hf.call h c .encode
      (fun x => (∃ r, x = .wunlock r) ∨ ∃ rest, x = .writing rest) (by simp) (fun hI => hE _ c hI)
      (by intro s a s' ha ht hp; cases ht <;> simp_all [Act.by, Act.ofMessage, State.set]) hp
    rcases h1 with ⟨r, h1⟩ | ⟨rest, h1⟩
    · obtain ⟨m', hm', h2⟩ := unl m1 r h1
      exact ⟨m', Nat.le_trans hm1 hm', h2⟩
    · obtain ⟨m', hm', h2⟩ := wri' m1 rest h1
      exact ⟨m', Nat.le_trans hm1 hm', h2⟩
  case writing rest => exact wri' n rest hp
  case wunlock r => exact unl n r hp

set_option maxHeartbeats 800000 in
/-- Every call comes to wait for its reply, or returns. -/
theorem FairR.sends (hP : 4 ≤ P.buf) (hf : FairR R st act) (h : Exec P st act) (hc : ∀ n, (st n).crashed = false)
    (hac : Takes st act) (hR : ∀ m c, CanGo P (st m) (.call c) → ((st m).calls c).pc ≠ .encode → R (st m) (.call c))
    (hE : ∀ n c, (∀ m, n ≤ m → ((st m).calls c).pc = .encode) → ∀ k, ∃ m, k ≤ m ∧ R (st m) (.call c))
    (hm : ∀ m, CanGo P (st m) .message → (st m).mpc.holdsR = true → R (st m) .message) {n c : Nat}
    (h0 : ((st n).calls c).pc ≠ .absent) :
    ∃ m, n ≤ m ∧ (((st m).calls c).pc = .recv ∨ ∃ o, ((st m).calls c).pc = .done o) := by
  have freeW : ∀ n, ∃ m, n ≤ m ∧ (st m).writeLock = none := fun n => by
    cases ho : (st n).writeLock with
    | none => exact ⟨n, Nat.le_refl n, ho⟩
    | some c =>
      obtain ⟨m, h1, h2⟩ := hf.accepts h hc hac hR hE n c (((h.reach n).locks.callW c).2 ho)
      refine Classical.byContradiction fun hx => ?_
      have hx : ∀ m, n ≤ m → (st m).writeLock ≠ none := fun m hm h => hx ⟨m, hm, h⟩
      have hsame : ∀ m, n ≤ m → (st m).writeLock = some c := h.keep (I := fun s => s.writeLock = some c)
        (fun m hm a _ ht hi => by
          have := hx (m + 1) (by omega)
          generalize st (m + 1) = s' at ht this
          cases ht <;> simp_all [State.set]) ho
      have h3 := ((h.reach m).locks.callW c).2 (hsame m h1)
      rcases h2 with h2 | ⟨o, h2⟩ <;> simp [h2, CPc.holdsW] at h3
  have enc : ∀ n, ((st n).calls c).pc = .encode →
      ∃ m, n ≤ m ∧ (((st m).calls c).pc = .recv ∨ ∃ o, ((st m).calls c).pc = .done o) := fun n hp =>
    hf.accepts h hc hac hR hE n c (by rw [hp]; rfl)
  have wlk : ∀ n, ((st n).calls c).pc = .wlock →
      ∃ m, n ≤ m ∧ (((st m).calls c).pc = .recv ∨ ∃ o, ((st m).calls c).pc = .done o) := fun n hp => by
    obtain ⟨m1, h1, h2⟩ := hf.call h c .wlock (· = .encode) (by simp) (fun hI k => by
        obtain ⟨m', h1, h2⟩ := freeW (max n k)
        refine ⟨m', Nat.le_trans (Nat.le_max_right _ _) h1, hR _ _ (.inl ?_) (by
          simp [hI m' (Nat.le_trans (Nat.le_max_left _ _) h1)])⟩
        rw [step_call (hc _)]
        simp [callStep, hI m' (Nat.le_trans (Nat.le_max_left _ _) h1), h2])
      (by intro s a s' ha ht hp; cases ht <;> simp_all [Act.by, Act.ofMessage, State.set]) hp
    obtain ⟨m2, h3, h4⟩ := enc m1 h2
    exact ⟨m2, by omega, h4⟩
  have run : ∀ n, ((st n).calls c).pc = .runlock →
      ∃ m, n ≤ m ∧ (((st m).calls c).pc = .recv ∨ ∃ o, ((st m).calls c).pc = .done o) := fun n hp => by
    obtain ⟨m1, h1, h2⟩ := hf.callReady h hc c .runlock (fun m hg hx => hR m c hg (by simp [hx])) (· = .wlock) (by simp)
      (by intro s hp; simp [callStep, hp])
      (by intro s a s' ha ht hp; cases ht <;> simp_all [Act.by, Act.ofMessage, State.set]) hp
    obtain ⟨m2, h3, h4⟩ := wlk m1 h2
    exact ⟨m2, by omega, h4⟩
  have ins : ∀ n, ((st n).calls c).pc = .insert →
      ∃ m, n ≤ m ∧ (((st m).calls c).pc = .recv ∨ ∃ o, ((st m).calls c).pc = .done o) := fun n hp => by
    obtain ⟨m1, h1, h2⟩ := hf.callReady h hc c .insert (fun m hg hx => hR m c hg (by simp [hx])) (· = .runlock) (by simp)
      (by intro s hp; simp [callStep, hp])
      (by intro s a s' ha ht hp; cases ht <;> simp_all [Act.by, Act.ofMessage, State.set]) hp
    obtain ⟨m2, h3, h4⟩ := run m1 h2
    exact ⟨m2, by omega, h4⟩
  have rlk : ∀ n, ((st n).calls c).pc = .rlock →
      ∃ m, n ≤ m ∧ (((st m).calls c).pc = .recv ∨ ∃ o, ((st m).calls c).pc = .done o) := fun n hp => by
    obtain ⟨m1, h1, h2⟩ := hf.call h c .rlock (· = .insert) (by simp) (fun hI k => by
        obtain ⟨m', h1, h2⟩ := hf.freeR hP h hc hm (fun m c hg hx => hR m c hg (by intro h; rw [h] at hx; cases hx)) (max n k)
        refine ⟨m', Nat.le_trans (Nat.le_max_right _ _) h1, hR _ _ (.inl ?_) (by
          simp [hI m' (Nat.le_trans (Nat.le_max_left _ _) h1)])⟩
        rw [step_call (hc _)]
        simp [callStep, hI m' (Nat.le_trans (Nat.le_max_left _ _) h1), h2])
      (by intro s a s' ha ht hp; cases ht <;> simp_all [Act.by, Act.ofMessage, State.set]) hp
    obtain ⟨m2, h3, h4⟩ := ins m1 h2
    exact ⟨m2, by omega, h4⟩
  cases hp : ((st n).calls c).pc with
  | absent => exact absurd hp h0
  | add =>
    obtain ⟨m1, h1, h2⟩ := hf.callReady h hc c .add (fun m hg hx => hR m c hg (by simp [hx])) (· = .rlock) (by simp)
      (by intro s hp; simp [callStep, hp])
      (by intro s a s' ha ht hp; cases ht <;> simp_all [Act.by, Act.ofMessage, State.set]) hp
    obtain ⟨m2, h3, h4⟩ := rlk m1 h2
    exact ⟨m2, by omega, h4⟩
  | rlock => exact rlk n hp
  | insert => exact ins n hp
  | runlock => exact run n hp
  | wlock => exact wlk n hp
  | encode => exact enc n hp
  | writing rest => exact hf.accepts h hc hac hR hE n c (by rw [hp]; rfl)
  | wunlock r => exact hf.accepts h hc hac hR hE n c (by rw [hp]; rfl)
  | recv => exact ⟨n, Nat.le_refl n, .inl hp⟩
  | done o => exact ⟨n, Nat.le_refl n, .inr ⟨o, hp⟩⟩

/-- A call whose reply `messageLoop` has in hand returns it. -/
theorem FairR.replies (hP : 4 ≤ P.buf) (hf : FairR R st act) (h : Exec P st act) (hc : ∀ n, (st n).crashed = false)
    (hm : ∀ m, CanGo P (st m) .message → R (st m) .message)
    (hR : ∀ m c, CanGo P (st m) (.call c) → ((st m).calls c).pc = .recv → R (st m) (.call c)) {n c : Nat} {d : Decoder}
    (h0 : (st n).mpc = .decode d c) (h1 : ((st n).calls c).pc = .recv) :
    ∃ m, n ≤ m ∧ ((st m).calls c).pc = .done (.reply d) := by
  -- `messageLoop` goes on outside `ReadN`
  have own : ∀ m a, a.by .message = true → (∀ size, (st m).mpc ≠ .inHead ∧ (st m).mpc ≠ .inBody size) →
      Trans P (st m) a (st (m + 1)) → a = .message := fun m a ha ho ht => by
    have hidle : (st m).ring.rpc = .idle := (((h.reach m).stream hP).out ho).1
    cases a <;> simp [Act.by, Act.ofMessage] at ha ⊢
    case ring a =>
      generalize st (m + 1) = s' at ht
      cases ht with
      | ring _ r hin hst => exact absurd hst (ring_idle hin ha hidle)
      | full hfull => simp [full, hidle] at hfull
  have hp1 : ∃ m, n ≤ m ∧ (st m).mpc = .send d c ∧ ((st m).calls c).pc = .recv := by
    refine hf.step h .message (fun s => s.mpc = .decode d c ∧ (s.calls c).pc = .recv)
      (fun s => s.mpc = .send d c ∧ (s.calls c).pc = .recv) (fun hI k => ?_) (fun m hm' a ht hi => ?_) (fun m _ a ha ht hi => ?_) ⟨h0, h1⟩
    · obtain ⟨h2, _⟩ := hI (max n k) (Nat.le_max_left _ _)
      refine ⟨max n k, Nat.le_max_right _ _, hm _ ⟨.message, rfl, ?_⟩⟩
      rw [step_message (hc _)]
      simp only [messageStep, h2]
      split <;> rfl
    · have hck := ((h.reach m).tokens.taken c (by rw [hi.1]; rfl)).2.1
      have hcr := hc (m + 1)
      by_cases ha : a.by .message = true
      · obtain rfl := own m a ha (by intro size; rw [hi.1]; exact ⟨by simp, by simp⟩) ht
        generalize st (m + 1) = s' at ht hcr
        cases ht <;> simp_all [State.set]
      · have h2 := ht.mpc (by simpa [Act.by] using ha)
        left
        refine ⟨h2.trans hi.1, ?_⟩
        by_cases hb : a.by (.call c) = true
        · generalize st (m + 1) = s' at ht h2
          cases ht <;> simp_all [State.set, Act.by]
        · rw [ht.pc (by simpa using hb) (by rw [hi.2]; simp)]; exact hi.2
    · have hcr := hc (m + 1)
      obtain rfl := own m a ha (by intro size; rw [hi.1]; exact ⟨by simp, by simp⟩) ht
      generalize st (m + 1) = s' at ht hcr
      cases ht <;> simp_all [State.set]
  obtain ⟨m1, g1, g2, g3⟩ := hp1
  have hp2 : ∃ m, m1 ≤ m ∧ ((st m).calls c).chan = some d ∧ ((st m).calls c).pc = .recv := by
    refine hf.step h .message (fun s => s.mpc = .send d c ∧ (s.calls c).pc = .recv)
      (fun s => (s.calls c).chan = some d ∧ (s.calls c).pc = .recv) (fun hI k => ?_) (fun m hm' a ht hi => ?_) (fun m _ a ha ht hi => ?_) ⟨g2, g3⟩
    · obtain ⟨h2, _⟩ := hI (max m1 k) (Nat.le_max_left _ _)
      have hck := ((h.reach (max m1 k)).tokens.taken c (by rw [h2]; rfl)).2.1
      refine ⟨max m1 k, Nat.le_max_right _ _, hm _ ⟨.message, rfl, ?_⟩⟩
      rw [step_message (hc _)]
      simp only [messageStep, h2, hck]
      rfl
    · have hck := ((h.reach m).tokens.taken c (by rw [hi.1]; rfl)).2.1
      by_cases ha : a.by .message = true
      · obtain rfl := own m a ha (by intro size; rw [hi.1]; exact ⟨by simp, by simp⟩) ht
        generalize st (m + 1) = s' at ht
        cases ht <;> simp_all [State.set]
      · have h2 := ht.mpc (by simpa [Act.by] using ha)
        left
        refine ⟨h2.trans hi.1, ?_⟩
        by_cases hb : a.by (.call c) = true
        · generalize st (m + 1) = s' at ht h2
          cases ht <;> simp_all [State.set, Act.by]
        · rw [ht.pc (by simpa using hb) (by rw [hi.2]; simp)]; exact hi.2
    · obtain rfl := own m a ha (by intro size; rw [hi.1]; exact ⟨by simp, by simp⟩) ht
      generalize st (m + 1) = s' at ht
      cases ht <;> simp_all [State.set]
  obtain ⟨m2, g4, g5, g6⟩ := hp2
  obtain ⟨m3, g7, g8⟩ := hf.step h (.call c) (fun s => (s.calls c).chan = some d ∧ (s.calls c).pc = .recv)
    (fun s => (s.calls c).pc = .done (.reply d)) (n := m2) (fun hI k => by
      obtain ⟨h2, h3⟩ := hI (max m2 k) (Nat.le_max_left _ _)
      refine ⟨max m2 k, Nat.le_max_right _ _, hR _ _ (.inl ?_) h3⟩
      rw [step_call (hc _)]
      simp [callStep, h2, h3])
    (fun m _ a ht hi => by
      obtain ⟨h2, h3⟩ := hi
      have hnt := (h.reach m).tokens.taken c
      generalize st (m + 1) = s' at ht
      cases ht <;> simp only [State.set] <;> grind [MPc.taken])
    (fun m _ a ha ht hi => by
      obtain ⟨h2, h3⟩ := hi
      generalize st (m + 1) = s' at ht
      cases ht <;> simp_all [State.set, Act.by]) ⟨g5, g6⟩
  exact ⟨m3, by omega, g8⟩

end

end Kafka.Conn
