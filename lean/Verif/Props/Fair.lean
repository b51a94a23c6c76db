import Verif.Conn.Fair
import Verif.Props.Close
/-!
Properties C36, C53 and C61: infinite executions in which no goroutine is passed over for ever.
-/
set_option linter.unusedSimpArgs false

namespace Kafka.Props

open Conn

/-! ## There are such executions -/

/-- A state in which everything has ended, but for calls that wait for a reply. -/
structure Over (s : Conn.State) : Prop where
  mpc : s.mpc = .exited
  lpc : s.lpc = .exited
  rpc : s.ring.rpc = .idle
  wpc : s.ring.wpc = .idle
  calls : ∀ c, (s.calls c).pc = .absent ∨ (∃ o, (s.calls c).pc = .done o) ∨ (s.calls c).pc = .recv ∧ (s.calls c).chan = none
  closers : ∀ k, s.closers k = .absent ∨ s.closers k = .done

/-- Then no goroutine can go on. -/
theorem Over.stuck {P : Params} {s : Conn.State} (h : Over s) (p : Proc) : ¬CanGo P s p := by
  cases p with
  | message =>
    rintro ⟨a, ha, hs⟩
    obtain ⟨s', hs⟩ := Option.isSome_iff_exists.1 hs
    have ht := step_trans hs
    cases ht <;> simp_all [Act.ofMessage, h.mpc]
    case ring a r hin hst => exact absurd hst (ring_idle hin ha h.rpc)
    case full hf => simp [full, h.rpc] at hf
  | read =>
    rintro ⟨⟨a, ha, hs⟩, _⟩
    obtain ⟨s', hs⟩ := Option.isSome_iff_exists.1 hs
    have ht := step_trans hs
    cases ht <;> simp_all [Act.ofRead, h.lpc]
    case ring a r hin hst =>
      cases a <;> simp [inRing] at hin <;> simp [Ring.Action.ofWriter] at ha <;>
        simp [Ring.step, Ring.wStep, h.wpc] at hst
    case full hf => simp [full, h.rpc] at hf
  | call c =>
    rintro (hs | ⟨_, e, hs⟩) <;> obtain ⟨s', hs⟩ := Option.isSome_iff_exists.1 hs <;> have ht := step_trans hs <;>
      rcases h.calls c with hp | ⟨o, hp⟩ | ⟨hp, hch⟩ <;> cases ht <;> simp_all
  | close k =>
    rintro ⟨ha, hs⟩
    obtain ⟨s', hs⟩ := Option.isSome_iff_exists.1 hs
    have ht := step_trans hs
    rcases h.closers k with hp | hp
    · exact ha hp
    · cases ht <;> simp_all

/-- A schedule that ends where no goroutine can go on, followed by nothing for ever, is a fair execution. -/
theorem fair_of_run_act {P : Params} {as : List Act} {s0 s : Conn.State} (h0 : Conn.Reach P Conn.Any s0)
    (hrun : Conn.run P as s0 = some s) (hs : ∀ p, ¬CanGo P s p) :
    ∃ st act, Exec P st act ∧ Fair P st act ∧ (∀ m, Conn.run P (as.take m) s0 = some (st m)) ∧ ∀ m, act m = as[m]? := by
  have step_none : ∀ (st : Nat → Conn.State) (act : Nat → Option Act), (∀ m, as.length ≤ m → st m = s) →
      Fair P st act := fun st act hst p hp => by
    obtain ⟨m, hm, hr⟩ := hp as.length
    rw [hst m hm] at hr
    exact absurd hr (hs p)
  suffices h : ∀ (as : List Act) (s0 : Conn.State), Conn.Reach P Conn.Any s0 → Conn.run P as s0 = some s →
      ∃ st act, Exec P st act ∧ (∀ m, Conn.run P (as.take m) s0 = some (st m)) ∧ ∀ m, act m = as[m]? by
    obtain ⟨st, act, h1, h2, h3⟩ := h as s0 h0 hrun
    exact ⟨st, act, h1, step_none st act (fun m hm => by
      have := h2 m
      rw [List.take_of_length_le hm, hrun] at this
      exact (Option.some.inj this).symm), h2, h3⟩
  intro as
  induction as with
  | nil =>
    intro s0 hr hrun
    cases hrun
    exact ⟨fun _ => s, fun _ => none, ⟨hr, nofun, fun _ _ => rfl⟩, fun m => by simp [Conn.run], fun m => rfl⟩
  | cons a as ih =>
    intro s0 hr hrun
    simp only [Conn.run] at hrun
    obtain ⟨s1, h1, h2⟩ := Option.bind_eq_some_iff.1 hrun
    obtain ⟨st, act, he, hst, hact⟩ := ih s1 (hr.step a trivial h1) h2
    refine ⟨fun | 0 => s0 | n + 1 => st n, fun | 0 => some a | n + 1 => act n, ⟨hr, ?_, ?_⟩, ?_, ?_⟩
    · intro n b hb
      cases n with
      | zero =>
        cases hb
        have := hst 0
        simp only [List.take_zero, Conn.run, Option.some.injEq] at this
        simpa [← this] using h1
      | succ n => exact he.some n b hb
    · intro n hb
      cases n with
      | zero => cases hb
      | succ n => exact he.none n hb
    · intro m
      cases m with
      | zero => rfl
      | succ m => simp [Conn.run, h1, hst m]
    · intro m
      cases m with
      | zero => rfl
      | succ m => exact hact m

theorem fair_of_run {P : Params} {as : List Act} {s0 s : Conn.State} (h0 : Conn.Reach P Conn.Any s0)
    (hrun : Conn.run P as s0 = some s) (hs : ∀ p, ¬CanGo P s p) :
    ∃ st act, Exec P st act ∧ Fair P st act ∧ ∀ m, Conn.run P (as.take m) s0 = some (st m) := by
  obtain ⟨st, act, h1, h2, h3, _⟩ := fair_of_run_act h0 hrun hs
  exact ⟨st, act, h1, h2, h3⟩

/-- Nothing happens any more when a goroutine has panicked. -/
theorem crashed_stays {P : Params} {st : Nat → Conn.State} {act : Nat → Option Act} (h : Exec P st act) {n : Nat}
    (hc : (st n).crashed = true) : ∀ m, n ≤ m → (st m).crashed = true :=
  h.keep (I := fun s => s.crashed = true) (fun m _ a ha _ hi => by
    have := h.some m a ha
    simp [Conn.step, hi] at this) hc

/-! ## C53: Close returns -/

/-- In every execution in which no goroutine is passed over for ever, a call of `Close` returns or a goroutine panics,
whatever the peer does and whatever calls there are. -/
theorem C53_fair {P : Params} (hP : 4 ≤ P.buf) {st : Nat → Conn.State} {act : Nat → Option Act} (h : Exec P st act)
    (hf : Fair P st act) {n k : Nat} (h0 : (st n).closers k ≠ .absent) :
    ∃ m, n ≤ m ∧ ((st m).crashed = true ∨ (st m).closers k = .done) := by
  by_cases hc : ∃ m, (st m).crashed = true
  · obtain ⟨m, hm⟩ := hc
    exact ⟨max n m, Nat.le_max_left _ _, .inl (crashed_stays h hm _ (Nat.le_max_right _ _))⟩
  · obtain ⟨m, hm, hd⟩ := hf.closes hP h (fun m => by
      cases hx : (st m).crashed with
      | false => rfl
      | true => exact absurd ⟨m, hx⟩ hc) h0
    exact ⟨m, hm, .inr hd⟩

/-! ## C36: what becomes of the calls when the connection is closed -/

/-- From the moment the network connection is closed, in every execution in which no goroutine is passed over for ever and
none panics: a call that has not begun to write its request returns an error.  Missing for the full claim: calls that have
written their request. -/
theorem C36_fair_partial {P : Params} (hP : 4 ≤ P.buf) {st : Nat → Conn.State} {act : Nat → Option Act} (h : Exec P st act)
    (hf : Fair P st act) (hc : ∀ m, (st m).crashed = false) {n c : Nat} (hr : (st n).rawClosed = true)
    (ha : ((st n).calls c).pc ≠ .absent) (hp : ((st n).calls c).pc.before = true)
    (hn : ∀ id, ((st n).calls c).job.frame id ≠ []) :
    ∃ m e, n ≤ m ∧ ((st m).calls c).pc = .done (.flushErr e) := by
  have hd : Doomed c (st n) := ⟨hr, ha, hn, .inl hp⟩
  obtain ⟨m, hm, hend⟩ := hf.ends hP h hc (hf.passes h hc hr) ha
  have hdm := (h.keep (I := Doomed c) (fun _ _ _ _ ht hi => hi.trans ht) hd m hm).2.2.2
  rcases hend with h1 | ⟨o, h1⟩ <;> rw [h1] at hdm
  · simp [CPc.before] at hdm
  · obtain ⟨e, he⟩ : ∃ e, o = .flushErr e := by simpa [CPc.before] using hdm
    exact ⟨m, e, hm, by rw [h1, he]⟩

/-- Every call, of those that were made before or are made later: it returns, or it comes to wait for a reply that never
comes, and then it waits for ever. -/
theorem C36_fair {P : Params} (hP : 4 ≤ P.buf) {st : Nat → Conn.State} {act : Nat → Option Act} (h : Exec P st act)
    (hf : Fair P st act) (hc : ∀ m, (st m).crashed = false) {n k c : Nat} (hk : (st n).closers k = .done)
    (ha : ((st n).calls c).pc ≠ .absent) :
    (∃ m o, n ≤ m ∧ ((st m).calls c).pc = .done o) ∨
    (∃ m, n ≤ m ∧ ∀ j, m ≤ j → ((st j).calls c).pc = .recv ∧ ((st j).calls c).chan = none) := by
  have hcl := (h.reach n).closed
  have hr := hcl.raw k (by simp [hk]) (by simp [hk]) (by simp [hk]) (by simp [hk])
  have hm : (st n).mpc = .exited := hcl.read k (.inr hk)
  have hmx : ∀ m, n ≤ m → (st m).mpc = .exited := h.keep (I := fun s => s.mpc = .exited) (fun _ _ _ _ ht hi => by
    generalize st (_ + 1) = s' at ht
    cases ht <;> simp_all [State.set]) hm
  obtain ⟨m, hnm, hend⟩ := hf.ends hP h hc (hf.passes h hc hr) ha
  rcases hend with h1 | ⟨o, h1⟩
  · cases hch : ((st m).calls c).chan with
    | none =>
      refine .inr ⟨m, hnm, h.keep (I := fun s => (s.calls c).pc = .recv ∧ (s.calls c).chan = none) (fun j hj a _ ht hi => ?_)
        ⟨h1, hch⟩⟩
      have := hmx j (by omega)
      generalize st (j + 1) = s' at ht
      obtain ⟨hi1, hi2⟩ := hi
      cases ht <;> simp only [State.set] <;> grind
    | some d =>
      -- the value in the channel stays there until the call takes it
      obtain ⟨m', hm', hd⟩ := hf.step h (.call c) (fun s => (s.calls c).pc = .recv ∧ (s.calls c).chan = some d)
        (fun s => ∃ o, (s.calls c).pc = .done o) (n := m)
        (fun hI i => ⟨max m i, Nat.le_max_right _ _, .inl (by
          rw [step_call (hc _)]
          simp [callStep, (hI _ (Nat.le_max_left m i)).1, (hI _ (Nat.le_max_left m i)).2])⟩)
        (fun j hj a ht hi => by
          have := hmx j (by omega)
          generalize st (j + 1) = s' at ht
          obtain ⟨hi1, hi2⟩ := hi
          cases ht <;> simp only [State.set] <;> grind)
        (fun j hj a hac ht hi => by
          generalize st (j + 1) = s' at ht
          obtain ⟨hi1, hi2⟩ := hi
          cases ht <;> simp_all [Act.by, Act.ofMessage, State.set])
        ⟨h1, hch⟩
      obtain ⟨o, ho⟩ := hd
      exact .inl ⟨m', o, by omega, ho⟩
  · exact .inl ⟨m, o, hnm, h1⟩

/-- Non-trivial instances: a fair execution in which `Close` is called while call 0 waits, and call 1 is made on the closed
connection, and the network takes what is written: `Close` returns, call 0 waits for ever and call 1 returns an error. -/
def closeThenCall : List Act := closeWhileWaiting ++
  [.start 1 sampleJob, .call 1, .call 1, .call 1, .call 1, .call 1, .call 1, .writeErr 1 0 ⟨7⟩, .call 1]

theorem fair_example : ∃ st act, Exec small st act ∧ Fair small st act ∧ (∀ m, (st m).crashed = false) ∧ Takes st act ∧
    (∃ n, (st n).closers 0 = .cancel) ∧ (∃ n, (st n).closers 0 = .done ∧ ((st n).calls 0).pc = .recv) ∧
    (∃ n, (st n).rawClosed = true ∧ ((st n).calls 1).pc = .add ∧ ∀ id, ((st n).calls 1).job.frame id ≠ []) := by
  have h : (Conn.run small closeThenCall (Conn.init small)).isSome = true := rfl
  obtain ⟨s, hs⟩ := Option.isSome_iff_exists.1 h
  have hov : Over s := by
    cases hs
    refine ⟨rfl, rfl, rfl, rfl, fun c => ?_, fun k => ?_⟩
    · match c with
      | 0 => exact .inr (.inr ⟨rfl, rfl⟩)
      | 1 => exact .inr (.inl ⟨_, rfl⟩)
      | c + 2 => exact .inl rfl
    · match k with
      | 0 => exact .inr rfl
      | k + 1 => exact .inl rfl
  obtain ⟨st, act, h1, h2, h3⟩ := fair_of_run .init hs (P := small) hov.stuck
  have crash : (s.crashed : Bool) = false := by cases hs; rfl
  have at_ : ∀ n s', Conn.run small (closeThenCall.take n) (Conn.init small) = some s' → st n = s' := fun n s' h => by
    rw [h3 n] at h; exact Option.some.inj h
  refine ⟨st, act, h1, h2, fun m => ?_, fun n c rest hp hne => ?_, ?_, ?_, ?_⟩
  · cases hx : (st m).crashed with
    | false => rfl
    | true =>
      have h4 := crashed_stays h1 hx (max m closeThenCall.length) (Nat.le_max_left _ _)
      have h5 := h3 (max m closeThenCall.length)
      rw [List.take_of_length_le (Nat.le_max_right _ _), hs] at h5
      rw [← Option.some.inj h5, crash] at h4
      cases h4
  · refine Classical.byContradiction fun hno => ?_
    have hI := h1.keep (I := fun s => (s.calls c).pc = .writing rest) (n := n) (fun m hm a ha ht hi => by
      rw [ht.pc (Bool.eq_false_iff.2 fun hb => hno ⟨m, a, hm, ha, hb⟩) (by simp [hi])]; exact hi) hp
      (max n closeThenCall.length) (Nat.le_max_left _ _)
    have h5 := h3 (max n closeThenCall.length)
    rw [List.take_of_length_le (Nat.le_max_right _ _), hs] at h5
    rw [← Option.some.inj h5] at hI
    rcases hov.calls c with h6 | ⟨o, h6⟩ | ⟨h6, _⟩ <;> rw [h6] at hI <;> cases hI
  · obtain ⟨s', hs'⟩ := Option.isSome_iff_exists.1
      (show (Conn.run small (closeThenCall.take 12) (Conn.init small)).isSome = true from rfl)
    refine ⟨12, ?_⟩
    rw [at_ 12 s' hs']
    cases hs'
    rfl
  · obtain ⟨s', hs'⟩ := Option.isSome_iff_exists.1
      (show (Conn.run small (closeThenCall.take 19) (Conn.init small)).isSome = true from rfl)
    refine ⟨19, ?_⟩
    rw [at_ 19 s' hs']
    cases hs'
    exact ⟨rfl, rfl⟩
  · obtain ⟨s', hs'⟩ := Option.isSome_iff_exists.1
      (show (Conn.run small (closeThenCall.take 20) (Conn.init small)).isSome = true from rfl)
    refine ⟨20, ?_⟩
    rw [at_ 20 s' hs']
    cases hs'
    refine ⟨rfl, rfl, fun id => ?_⟩
    show Wire.int32 id ≠ []
    rw [wire_int32]
    simp [be32]

/-! ## C61: calls do not hold one another up -/

/-- In every execution in which no goroutine is passed over for ever and none panics, and the network takes bytes or fails:
every call comes to wait for its own reply or returns, however many other calls there are, whatever frames arrive and whether
or not the other calls are ever answered. -/
theorem C61_proceeds {P : Params} (hP : 4 ≤ P.buf) {st : Nat → Conn.State} {act : Nat → Option Act} (h : Exec P st act)
    (hf : Fair P st act) (hc : ∀ m, (st m).crashed = false) (ha : Takes st act) {n c : Nat}
    (hn : ((st n).calls c).pc ≠ .absent) :
    ∃ m, n ≤ m ∧ (((st m).calls c).pc = .recv ∨ ∃ o, ((st m).calls c).pc = .done o) :=
  hf.ends hP h hc (hf.accepts h hc ha n) hn

/-- Even if the network takes nothing, every call is entered in the map of requests. -/
theorem C61_registers {P : Params} (hP : 4 ≤ P.buf) {st : Nat → Conn.State} {act : Nat → Option Act} (h : Exec P st act)
    (hf : Fair P st act) (hc : ∀ m, (st m).crashed = false) {n c : Nat} (hn : ((st n).calls c).pc = .add) :
    ∃ m, n ≤ m ∧ ((st m).calls c).pc = .wlock :=
  hf.registers hP h hc hn

/-- A call that has been given its reply returns it. -/
theorem C61_takes {P : Params} {st : Nat → Conn.State} {act : Nat → Option Act} (h : Exec P st act)
    (hf : Fair P st act) (hc : ∀ m, (st m).crashed = false) {n c : Nat} {d : Decoder} (hn : ((st n).calls c).pc = .recv)
    (hd : ((st n).calls c).chan = some d) : ∃ m, n ≤ m ∧ ((st m).calls c).pc = .done (.reply d) := by
  refine hf.step h (.call c) (fun s => (s.calls c).pc = .recv ∧ (s.calls c).chan = some d)
    (fun s => (s.calls c).pc = .done (.reply d)) (n := n) (fun hI i => ⟨max n i, Nat.le_max_right _ _, .inl (by
      rw [step_call (hc _)]
      simp [callStep, (hI _ (Nat.le_max_left n i)).1, (hI _ (Nat.le_max_left n i)).2])⟩)
    (fun j hj a ht hi => ?_) (fun j hj a hac ht hi => ?_) ⟨hn, hd⟩
  all_goals
    generalize st (j + 1) = s' at ht
    obtain ⟨hi1, hi2⟩ := hi
  · cases ht <;> simp only [State.set] <;> grind
  · cases ht <;> simp_all [Act.by, Act.ofMessage, State.set]

/-- A call, its reply, and `messageLoop` waiting for more. -/
def answered : List Act :=
  callDo 0 ++ deliver [0, 0, 0, 4, 0, 0, 0, 1] ++ fetch ++ List.replicate 6 .message ++ [.call 0, .message] ++
    List.replicate 5 (.ring .r)

/-- Non-trivial instance of `C61_takes`: a fair execution in which the reply is in the channel and the call waits for it. -/
example : ∃ st act, Exec small st act ∧ Fair small st act ∧ (∀ m, (st m).crashed = false) ∧
    ∃ n d, ((st n).calls 0).pc = .recv ∧ ((st n).calls 0).chan = some d := by
  have h : ((Conn.run small answered (Conn.init small)).map fun s => ((Conn.step small .message s).isSome ||
      (Conn.step small (.ring .r) s).isSome || (Conn.step small (.ring .handR) s).isSome ||
      (Conn.step small (.ring .handW) s).isSome || (Conn.step small (.call 0) s).isSome ||
      s.rawClosed || s.crashed || !decide (s.lpc = .read))) =
      some false := by decide +kernel
  obtain ⟨s, hs, h⟩ := Option.map_eq_some_iff.1 h
  simp only [Bool.or_eq_false_iff, Bool.not_eq_false', decide_eq_true_eq] at h
  obtain ⟨⟨⟨⟨⟨⟨⟨e1, e2⟩, e3⟩, e4⟩, e5⟩, e7⟩, e8⟩, e9⟩ := h
  have e12 : ∀ c, ((s.calls (c + 1)).pc = .absent) := by cases hs; exact fun _ => rfl
  have e13 : ∀ k, s.closers k = .absent := by cases hs; exact fun _ => rfl
  have stuck : ∀ p, ¬CanGo small s p := by
    intro p hp
    cases p with
    | message =>
      obtain ⟨a, ha, hst⟩ := hp
      cases a <;> simp [Act.ofMessage] at ha
      case message => rw [e1] at hst; cases hst
      case ring a => cases a <;> simp [Ring.Action.ofReader] at ha <;> simp_all
    | read => have := hp.2 e9; rw [e7] at this; cases this
    | call c =>
      rcases hp with hp | ⟨hp, _⟩
      · match c with
        | 0 => rw [e5] at hp; cases hp
        | c + 1 => rw [step_call e8] at hp; simp [callStep, e12 c] at hp
      · rw [e7] at hp; cases hp
    | close k => exact hp.1 (e13 k)
  obtain ⟨st, act, h1, h2, h3⟩ := fair_of_run .init hs (P := small) stuck
  refine ⟨st, act, h1, h2, fun m => ?_, answered.length - 7, ?_⟩
  · cases hx : (st m).crashed with
    | false => rfl
    | true =>
      have h4 := crashed_stays h1 hx (max m answered.length) (Nat.le_max_left _ _)
      have h5 := h3 (max m answered.length)
      rw [List.take_of_length_le (Nat.le_max_right _ _), hs] at h5
      rw [← Option.some.inj h5, e8] at h4
      cases h4
  · have h6 : ((Conn.run small (answered.take (answered.length - 7)) (Conn.init small)).map fun s =>
        ((s.calls 0).pc matches .recv) && (s.calls 0).chan.isSome) = some true := by decide +kernel
    rw [h3] at h6
    simp only [Option.map_some, Option.some.injEq, Bool.and_eq_true] at h6
    obtain ⟨d, hd⟩ := Option.isSome_iff_exists.1 h6.2
    refine ⟨d, ?_, hd⟩
    have h7 := h6.1
    split at h7
    · assumption
    · cases h7

end Kafka.Props
