import Verif.Conn.Nested
import Verif.Props.Whole
/-!
Property C85: functions given to `Do` that use the connection themselves.
-/
set_option linter.unusedSimpArgs false

namespace Kafka.Props

open Conn

/-! ## C85: The functions given to Do may use the connection -/

/-- The full claim, of functions that do what `U` says: every call of `Close` returns; if the network takes what is written,
every call of `Do` whose own `encode` does nothing special comes to wait for its reply or returns; and a call returns once
its `decode` has been called. -/
structure C85_statement (P : Params) (U : Uses) : Prop where
  close : ∀ st act, Nests P U st act → ∀ n k, (st n).closers k ≠ .absent → ∃ m, n ≤ m ∧ (st m).closers k = .done
  sends : ∀ st act, Nests P U st act → Takes st act → ∀ n c, U.encode c = none → ((st n).calls c).pc ≠ .absent →
    ∃ m, n ≤ m ∧ (((st m).calls c).pc = .recv ∨ ∃ o, ((st m).calls c).pc = .done o)
  replies : ∀ st act, Nests P U st act → ∀ n c d, (st n).mpc = .decode d c → ((st n).calls c).pc = .recv →
    ∃ m, n ≤ m ∧ ((st m).calls c).pc = .done (.reply d)

/-- A function that makes a call comes to make it. -/
def Makes (U : Uses) (st : Nat → Conn.State) : Prop :=
  ∀ n c i, U.encode c = some (.calls i) → ((st n).calls c).pc = .encode → ∃ m, n ≤ m ∧ i.made (st m)

/-- `Close` returns, and calls whose `decode` has been called do, if no `decode` uses the connection, whatever the `encode`
functions do; and every request is sent if besides they at most call `Close`.  Every request is sent if no `encode` uses the
connection or panics, whatever the `decode` functions do.  Missing for the full claim: the others, for which it is false. -/
theorem C85_partial {P : Params} (hP : 4 ≤ P.buf) (U : Uses) :
    ((∀ c, U.decode c = none) →
      (∀ st act, Nests P U st act → ∀ n k, (st n).closers k ≠ .absent → ∃ m, n ≤ m ∧ (st m).closers k = .done) ∧
      (∀ st act, Nests P U st act → ∀ n c d, (st n).mpc = .decode d c → ((st n).calls c).pc = .recv →
        ∃ m, n ≤ m ∧ ((st m).calls c).pc = .done (.reply d)) ∧
      ((∀ c u, U.encode c = some u → ∃ k, u = .calls (.close k)) →
        ∀ st act, Nests P U st act → Takes st act → Makes U st → ∀ n c, ((st n).calls c).pc ≠ .absent →
          ∃ m, n ≤ m ∧ (((st m).calls c).pc = .recv ∨ ∃ o, ((st m).calls c).pc = .done o))) ∧
    ((∀ c, U.encode c = none) → ∀ st act, Nests P U st act → Takes st act → ∀ n c, ((st n).calls c).pc ≠ .absent →
      ∃ m, n ≤ m ∧ (((st m).calls c).pc = .recv ∨ ∃ o, ((st m).calls c).pc = .done o)) := by
  have hclose : (∀ c, U.decode c = none) → ∀ st act, Nests P U st act → ∀ n k, (st n).closers k ≠ .absent →
      ∃ m, n ≤ m ∧ (st m).closers k = .done := fun hd st act h n k h0 =>
    h.fair.closes hP h.exec h.crashed (fun m hg => ⟨hg, fun ⟨_, c, i, _, hx, _⟩ => by rw [hd c] at hx; cases hx⟩)
      (fun m hg => ⟨hg, id⟩) (fun m k hg => ⟨hg, id⟩)
      (fun m c hg hh => ⟨hg, fun hw => by rw [hw.1] at hh; cases hh⟩) h0
  have hgo : ∀ st act, Nests P U st act → ∀ m c, ((st m).calls c).pc = .encode → CanGo P (st m) (.call c) :=
    fun st act h m c hp => .inl (by
      rw [step_call (h.crashed m)]; simp only [callStep, hp]; split <;> rfl)
  refine ⟨fun hd => ⟨hclose hd, fun st act h n c d h0 h1 => ?_, fun he st act h hac hmk n c h0 => ?_⟩,
    fun he st act h hac n c h0 => ?_⟩
  · exact h.fair.replies hP h.exec h.crashed (fun m hg => ⟨hg, fun ⟨_, c, i, _, hx, _⟩ => by rw [hd c] at hx; cases hx⟩)
      (fun m c hg hh => ⟨hg, fun hw => by rw [hw.1] at hh; cases hh⟩) h0 h1
  · refine h.fair.sends hP h.exec h.crashed hac (fun m c hg hx => ⟨hg, fun hw => hx hw.1⟩) (fun n c hI j => ?_)
      (fun m hg hh => ⟨hg, fun ⟨d, c, i, hx, _⟩ => by rw [hx] at hh; cases hh⟩) h0
    cases hu : U.encode c with
    | none =>
      refine ⟨max n j, Nat.le_max_right _ _, hgo st act h _ c (hI _ (Nat.le_max_left _ _)), fun hw => ?_⟩
      rcases hw.2 with hx | ⟨i, hx, _⟩ <;> rw [hu] at hx <;> cases hx
    | some u =>
      obtain ⟨k, rfl⟩ := he c u hu
      obtain ⟨m1, h1, h2⟩ := hmk n c _ hu (hI n (Nat.le_refl n))
      obtain ⟨m2, h3, h4⟩ := hclose hd st act h m1 k h2
      have hst : ∀ m, m2 ≤ m → (st m).closers k = .done := h.exec.keep (I := fun s => s.closers k = .done)
        (fun m _ a _ ht hi => by
          generalize st (m + 1) = s' at ht
          cases ht <;> simp_all [State.set, upd] <;> grind) h4
      refine ⟨max m2 j, Nat.le_max_right _ _, hgo st act h _ c (hI _ (by omega)), fun hw => ?_⟩
      rcases hw.2 with hx | ⟨i, hx, hy⟩ <;> rw [hu] at hx <;> cases hx
      exact hy (hst _ (Nat.le_max_left _ _))
  · have hno : ∀ m c, ¬Waits U (st m) (.call c) := fun m c hw => by
      rcases hw.2 with hx | ⟨i, hx, _⟩ <;> rw [he c] at hx <;> cases hx
    exact h.fair.sends hP h.exec h.crashed hac (fun m c hg _ => ⟨hg, hno m c⟩)
      (fun n c hI j => ⟨max n j, Nat.le_max_right _ _, hgo st act h _ c (hI _ (Nat.le_max_left _ _)), hno _ c⟩)
      (fun m hg hh => ⟨hg, fun ⟨d, c, i, hx, _⟩ => by rw [hx] at hh; cases hh⟩) h0

/-- The claim holds of functions that do not use the connection. -/
theorem C85_plain_partial {P : Params} (hP : 4 ≤ P.buf) : C85_statement P {} :=
  have h := C85_partial hP {}
  ⟨(h.1 fun _ => rfl).1, fun st act hn hac n c _ => h.2 (fun _ => rfl) st act hn hac n c, (h.1 fun _ => rfl).2.1⟩

/-- `encode` gets nothing back: it calls `Do`, or it panics. -/
def IsStuck : Use → Prop
  | .calls (.do _) => True
  | .calls (.close _) => False
  | .panics => True

/-- Call `c` is in its `encode`, which is within its call of `Do`, or has panicked. -/
def InEncode (U : Uses) (c : Nat) (s : Conn.State) : Prop :=
  (s.calls c).pc = .encode ∧ s.writeLock = some c ∧
    (U.encode c = some .panics ∨ ∃ j, U.encode c = some (.calls (.do j)) ∧ (s.calls j).pc.before = true)

theorem InEncode.step {P : Params} {U : Uses} {c : Nat} {s s' : Conn.State} {a : Act} (h : InEncode U c s)
    (hl : Locks s) (hn : Nested U s a) (ht : Trans P s a s') : InEncode U c s' ∧ s'.wire = s.wire ∧
      ∀ i, (s.calls i).pc.before = true → (s'.calls i).pc.before = true := by
  obtain ⟨h1, h2, h3⟩ := h
  have hw : Waits U s (.call c) := by
    refine ⟨h1, h3.imp_right fun ⟨j, h4, h5⟩ => ⟨.do j, h4, fun ⟨o, h6⟩ => ?_⟩⟩
    rw [h6] at h5; cases h5
  have hc : a.by (.call c) = false := by
    cases hb : a.by (.call c) with
    | false => rfl
    | true => exact absurd hw (hn.free _ hb)
  have hown : ∀ i, (s.calls i).pc.holdsW = true → i = c := fun i hi => by
    have := (hl.callW i).1 hi
    rw [h2] at this
    exact (Option.some.inj this).symm
  have hbef : ∀ i, (s.calls i).pc.before = true → (s'.calls i).pc.before = true := fun i hi => by
    have := hown i
    clear hn hw h3
    cases ht <;> simp only [Act.by, beq_eq_false_iff_ne] at hc <;> simp only [State.set] <;>
      grind [CPc.before, CPc.holdsW]
  have hwl : s'.writeLock = some c ∧ s'.wire = s.wire := by
    clear hn hw h3 hbef
    cases ht <;> simp only [Act.by, beq_eq_false_iff_ne] at hc <;> simp only [State.set]
    case wlock i _ hx => rw [h2] at hx; cases hx
    case wunlock i hx => exact absurd (hown i (by rw [hx]; rfl)) hc
    case failed i e hx => exact absurd (hown i (by rw [hx]; rfl)) hc
    case write i k rest hx _ _ _ => exact absurd (hown i (by rw [hx]; rfl)) hc
    case writeErr i k e rest hx _ _ _ => exact absurd (hown i (by rw [hx]; rfl)) hc
    all_goals first | exact ⟨h2, rfl⟩ | exact ⟨h2, trivial⟩
  refine ⟨⟨?_, hwl.1, h3.imp_right fun ⟨j, h4, h5⟩ => ⟨j, h4, hbef j h5⟩⟩, hwl.2, hbef⟩
  rw [ht.pc hc (by rw [h1]; simp)]
  exact h1

/-- Schedules with such functions. -/
def Leads' (P : Params) (U : Uses) (s : Conn.State) (as : List Act) (s' : Conn.State) : Prop :=
  RunsTo P (Nested U) (· = s') as s

theorem Leads'.keep {P : Params} {U : Uses} {I : Conn.State → Prop}
    (hstep : ∀ s a s', Conn.Reach P (Nested U) s → I s → Nested U s a → Trans P s a s' → I s') :
    ∀ {as : List Act} {s s' : Conn.State}, Conn.Reach P (Nested U) s → I s → Leads' P U s as s' → I s'
  | [], s, s', _, hi, hr => by cases hr; exact hi
  | a :: as, s, s', h, hi, ⟨h1, s1, h2, h3⟩ =>
    Leads'.keep hstep (h.step a h1 h2) (hstep s a s1 h hi h1 (step_trans h2)) h3

theorem Leads'.reach {P : Params} {U : Uses} : ∀ {as : List Act} {s s' : Conn.State}, Conn.Reach P (Nested U) s →
    Leads' P U s as s' → Conn.Reach P (Nested U) s'
  | [], _, _, h, hr => by cases hr; exact h
  | a :: _, _, _, h, ⟨h1, _, h2, h3⟩ => Leads'.reach (h.step a h1 h2) h3

/-- A `Do` called by an `encode` never returns, and nor does the `Do` it was given to. -/
theorem C85_encodeDo {P : Params} {U : Uses} {s : Conn.State} (h : Conn.Reach P (Nested U) s) {c j : Nat}
    (hu : U.encode c = some (.calls (.do j))) :
    (s.calls c).pc.before = true ∧ (s.calls j).pc.before = true := by
  have hI : (s.calls c).pc.before = true ∧ ((s.calls j).pc = .absent ∨ (s.calls c).pc = .encode ∧ c ≠ j) ∧
      (s.calls j).pc.before = true := by
    induction h with
    | init => exact ⟨rfl, .inl rfl, rfl⟩
    | @step s s' a hr hn hst ih =>
      obtain ⟨h1, h2, h3⟩ := ih
      have ht := step_trans hst
      have hl := hr.locks
      by_cases he : (s.calls c).pc = .encode
      · have hE : InEncode U c s := ⟨he, (hl.callW c).1 (by rw [he]; rfl), .inr ⟨j, hu, h3⟩⟩
        obtain ⟨h4, _, h5⟩ := hE.step hl hn ht
        refine ⟨by rw [h4.1]; rfl, ?_, h5 j h3⟩
        by_cases hcj : c = j
        · subst hcj
          rcases h2 with h2 | ⟨_, h2⟩
          · rw [he] at h2; cases h2
          · exact absurd rfl h2
        · exact .inr ⟨h4.1, hcj⟩
      · have habs : (s.calls j).pc = .absent := h2.resolve_right fun hx => he hx.1
        have hstart : ∀ job, a ≠ .start j job := fun job ha => by
          subst ha
          exact he (hn.encode c (.do j) hu rfl)
        have hj' : (s'.calls j).pc = .absent := by
          clear hn hst
          cases ht <;> simp only [State.set] <;> grind
        have hc' : (s'.calls c).pc.before = true := by
          clear hn hst hstart
          cases ht <;> simp only [State.set] <;> grind [CPc.before]
        exact ⟨hc', .inl hj', by rw [hj']; rfl⟩
  exact ⟨hI.1, hI.2.2⟩

/-- An `encode` that calls `Do`, or panics, stops all sending: from then on, whatever happens, nothing is written any more, no
call that had not been sent is, and neither these calls nor the one itself return. -/
theorem C85_encode {P : Params} {U : Uses} {s s' : Conn.State} (h : Conn.Reach P (Nested U) s) {c : Nat} {u : Use}
    (hu : U.encode c = some u) (hs : IsStuck u) (hc : (s.calls c).pc = .encode) {as : List Act}
    (hr : Leads' P U s as s') :
    (s'.calls c).pc = .encode ∧ s'.wire = s.wire ∧ ∀ i, (s.calls i).pc.before = true → (s'.calls i).pc.before = true := by
  have h0 : InEncode U c s := by
    refine ⟨hc, (h.locks.callW c).1 (by rw [hc]; rfl), ?_⟩
    match u, hs with
    | .panics, _ => exact .inl hu
    | .calls (.do j), _ => exact .inr ⟨j, hu, (C85_encodeDo h hu).2⟩
  have hI := Leads'.keep (P := P) (U := U) (I := fun x => InEncode U c x ∧ x.wire = s.wire ∧
      ∀ i, (s.calls i).pc.before = true → (x.calls i).pc.before = true) (fun x a x' hx ⟨h1, h2, h3⟩ hn ht => by
    obtain ⟨h4, h5, h6⟩ := h1.step hx.locks hn ht
    exact ⟨h4, h5.trans h2, fun i hi => h6 i (h3 i hi)⟩) h ⟨h0, rfl, fun _ => id⟩ hr
  exact ⟨hI.1.1, hI.2⟩

/-- A `Do` called by a `decode` never returns a reply: `messageLoop`, which would have to deliver it, waits for it. -/
theorem C85_decodeDo {P : Params} {U : Uses} {s : Conn.State} (h : Conn.Reach P (Nested U) s) {c j : Nat}
    (hu : U.decode c = some (.do j)) (d : Decoder) : (s.calls j).pc ≠ .done (.reply d) := by
  have hI : (s.calls j).pc = .absent ∨ ((∃ d, s.mpc = .decode d c) ∧ (s.calls j).chan = none ∧
      ∀ o, (s.calls j).pc ≠ .done o) ∨ ∃ e, (s.calls j).pc = .done (.flushErr e) := by
    induction h with
    | init => exact .inl rfl
    | @step s s' a hr hn hst ih =>
      have ht := step_trans hst
      have hk := hr.tokens
      rcases ih with h1 | ⟨⟨d, h1⟩, h2, h3⟩ | ⟨e, h1⟩
      · by_cases hstart : ∃ job, a = .start j job
        · obtain ⟨job, rfl⟩ := hstart
          obtain ⟨d, hm⟩ := hn.decode c (.do j) hu rfl
          have hch : (s.calls j).chan = none := by
            cases hx : (s.calls j).chan with
            | none => rfl
            | some x => have := (hk.chan j (by simp [hx])).1; rw [h1] at this; cases this
          refine .inr (.inl ?_)
          clear hn hst
          cases ht
          exact ⟨⟨d, hm⟩, by simp [State.set, hch], by simp [State.set]⟩
        · have hne : ∀ job, a ≠ .start j job := fun job ha => hstart ⟨job, ha⟩
          left
          clear hn hst hstart
          cases ht <;> simp only [State.set] <;> grind
      · have hw : Waits U s .message := ⟨d, c, .do j, h1, hu, fun ⟨o, ho⟩ => h3 o ho⟩
        have hm : a.ofMessage = false := by
          cases hb : a.ofMessage with
          | false => rfl
          | true => exact absurd hw (hn.free .message hb)
        have hm' := ht.mpc hm
        by_cases hd : ∃ e, (s'.calls j).pc = .done (.flushErr e)
        · exact .inr (.inr hd)
        · refine .inr (.inl ⟨⟨d, hm'.trans h1⟩, ?_⟩)
          clear hn hst hm'
          cases ht <;> simp only [Act.ofMessage, reduceCtorEq] at hm <;> simp only [State.set] at hd ⊢ <;> grind
      · refine .inr (.inr ⟨e, ?_⟩)
        clear hn hst
        cases ht <;> simp only [State.set] <;> grind
  intro hd
  rcases hI with h1 | ⟨_, _, h1⟩ | ⟨e, h1⟩
  · rw [h1] at hd; cases hd
  · exact h1 _ hd
  · rw [h1] at hd; cases hd

/-- `messageLoop` is in the `decode` of call `c`, which waits for a call. -/
def InDecode (U : Uses) (c : Nat) (d : Decoder) (i : Inner) (s : Conn.State) : Prop :=
  s.mpc = .decode d c ∧ U.decode c = some i ∧ ¬i.returned s

theorem InDecode.step {P : Params} {U : Uses} {c : Nat} {d : Decoder} {i : Inner} {s s' : Conn.State} {a : Act}
    (h : InDecode U c d i s) (hn : Nested U s a) (ht : Trans P s a s') : s'.mpc = .decode d c ∧
      (∀ j d', (s'.calls j).pc = .done (.reply d') → (s.calls j).pc = .done (.reply d') ∨ (s.calls j).chan = some d') ∧
      ∀ j d', (s'.calls j).chan = some d' → (s.calls j).chan = some d' := by
  have hm : a.ofMessage = false := by
    cases hb : a.ofMessage with
    | false => rfl
    | true => exact absurd ⟨d, c, i, h.1, h.2.1, h.2.2⟩ (hn.free .message hb)
  have hm' := ht.mpc hm
  refine ⟨hm'.trans h.1, fun j d' => ?_, fun j d' => ?_⟩ <;>
  · clear hn hm' h
    cases ht <;> simp only [Act.ofMessage, reduceCtorEq] at hm <;> simp only [State.set] <;> grind

/-- While a `decode` waits for the call it has made, no call returns a reply that it had not been given, and no `Close`
returns. -/
theorem C85_decode {P : Params} {U : Uses} {s s' : Conn.State} (h : Conn.Reach P (Nested U) s) {c : Nat} {i : Inner} {d : Decoder}
    (hm : s.mpc = .decode d c) (hu : U.decode c = some i) {as : List Act} (hr : Leads' P U s as s')
    (hi : ¬i.returned s') :
    s'.mpc = .decode d c ∧ (∀ k, s'.closers k ≠ .done) ∧
    ∀ j d', (s'.calls j).pc = .done (.reply d') → (s.calls j).pc = .done (.reply d') ∨ (s.calls j).chan = some d' := by
  -- what has returned has returned
  have hret : ∀ {s s' : Conn.State} {a : Act}, Trans P s a s' → i.returned s → i.returned s' := by
    intro s s' a ht hi
    cases i with
    | «do» j =>
      obtain ⟨o, ho⟩ := hi
      refine ⟨o, ?_⟩
      cases ht <;> simp only [State.set] <;> grind
    | close k =>
      simp only [Inner.returned] at hi ⊢
      cases ht <;> simp only [State.set] <;> grind
  have hI := Leads'.keep (P := P) (U := U) (I := fun x => i.returned x ∨ x.mpc = .decode d c ∧
      (∀ j d', (x.calls j).pc = .done (.reply d') → (s.calls j).pc = .done (.reply d') ∨ (s.calls j).chan = some d') ∧
      ∀ j d', (x.calls j).chan = some d' → (s.calls j).chan = some d') (fun x a x' hx hi hn ht => by
    rcases hi with hi | ⟨h1, h2, h3⟩
    · exact .inl (hret ht hi)
    · by_cases hi' : i.returned x
      · exact .inl (hret ht hi')
      · obtain ⟨h4, h5, h6⟩ := InDecode.step ⟨h1, hu, hi'⟩ hn ht
        refine .inr ⟨h4, fun j d' hj => ?_, fun j d' hj => h3 j d' (h6 j d' hj)⟩
        rcases h5 j d' hj with h7 | h7
        · exact h2 j d' h7
        · exact .inr (h3 j d' h7)) h (.inr ⟨hm, fun j d' hj => .inl hj, fun j d' hj => hj⟩) hr
  have hs' := Leads'.reach h hr
  obtain ⟨h1, h2, _⟩ := hI.resolve_left hi
  refine ⟨h1, fun k hk => ?_, h2⟩
  have := hs'.closed.read k (.inr hk)
  rw [h1] at this
  cases this

/-- A `Close` called by a `decode` never returns: it waits for `messageLoop`, which waits for it. -/
theorem C85_decodeClose {P : Params} {U : Uses} {s : Conn.State} (h : Conn.Reach P (Nested U) s) {c k : Nat}
    (hu : U.decode c = some (.close k)) : s.closers k ≠ .done := by
  have hI : s.closers k = .absent ∨ (∃ d, s.mpc = .decode d c) ∧ s.closers k ≠ .done := by
    induction h with
    | init => exact .inl rfl
    | @step s s' a hr hn hst ih =>
      have ht := step_trans hst
      by_cases hb : a.by (.close k) = true
      · have hm : ∃ d, s.mpc = .decode d c := by
          rcases ih with h1 | h1
          · refine hn.decode c (.close k) hu ?_
            cases a <;> simp [Act.by] at hb
            exact ⟨hb, h1⟩
          · exact h1.1
        obtain ⟨d, hm⟩ := hm
        have hm' : s'.mpc = .decode d c := by
          rw [ht.mpc (by cases a <;> simp [Act.by] at hb; rfl)]; exact hm
        refine .inr ⟨⟨d, hm'⟩, fun hd => ?_⟩
        have := (hr.step a hn hst).closed.read k (.inr hd)
        rw [hm'] at this
        cases this
      · have hk := ht.closers (k := k) (by simpa using hb)
        rw [hk]
        rcases ih with h1 | ⟨⟨d, h1⟩, h2⟩
        · exact .inl h1
        · have hw : Waits U s .message := ⟨d, c, .close k, h1, hu, h2⟩
          have hm : a.ofMessage = false := by
            cases hb : a.ofMessage with
            | false => rfl
            | true => exact absurd hw (hn.free .message hb)
          exact .inr ⟨⟨d, (ht.mpc hm).trans h1⟩, h2⟩
  intro hk
  rcases hI with h1 | h1
  · rw [h1] at hk; cases hk
  · exact h1.2 hk

/-! ### Executions -/

theorem _root_.Kafka.Conn.Nested.of_call {U : Uses} {s : Conn.State} {c : Nat} (h : ¬Waits U s (.call c)) : Nested U s (.call c) :=
  ⟨fun p hp => by cases p <;> simp [Act.by, Act.ofMessage, Act.ofRead] at hp; subst hp; exact h,
   fun _ i _ hb => (by cases i <;> cases hb), fun _ i _ hb => by cases i <;> cases hb⟩

theorem _root_.Kafka.Conn.Nested.of_write {U : Uses} {s : Conn.State} {c k : Nat} (h : ¬Waits U s (.call c)) : Nested U s (.write c k) :=
  ⟨fun p hp => by cases p <;> simp [Act.by, Act.ofMessage, Act.ofRead] at hp; subst hp; exact h,
   fun _ i _ hb => (by cases i <;> cases hb), fun _ i _ hb => by cases i <;> cases hb⟩

theorem _root_.Kafka.Conn.Nested.of_writeErr {U : Uses} {s : Conn.State} {c k : Nat} {e : WErr}
    (h : ¬Waits U s (.call c)) : Nested U s (.writeErr c k e) :=
  ⟨fun p hp => by cases p <;> simp [Act.by, Act.ofMessage, Act.ofRead] at hp; subst hp; exact h,
   fun _ i _ hb => (by cases i <;> cases hb), fun _ i _ hb => by cases i <;> cases hb⟩

theorem _root_.Kafka.Conn.Nested.of_message {U : Uses} {s : Conn.State} (h : ¬Waits U s .message) : Nested U s .message :=
  ⟨fun p hp => by cases p <;> simp [Act.by, Act.ofMessage, Act.ofRead] at hp; exact h,
   fun _ i _ hb => (by cases i <;> cases hb), fun _ i _ hb => by cases i <;> cases hb⟩

theorem _root_.Kafka.Conn.Nested.of_ring {U : Uses} {s : Conn.State} {a : Ring.Action} (h : a.ofReader = true → ¬Waits U s .message) :
    Nested U s (.ring a) :=
  ⟨fun p hp => by
    cases p <;> simp only [Act.by, Act.ofMessage, Act.ofRead, reduceCtorEq] at hp
    · exact h hp
    · exact id,
   fun _ i _ hb => (by cases i <;> cases hb), fun _ i _ hb => by cases i <;> cases hb⟩

theorem _root_.Kafka.Conn.Nested.of_read {U : Uses} {s : Conn.State} {a : Act} (ha : (∃ bs, a = .read bs) ∨ (∃ bs, a = .readErr bs) ∨ a = .readNext) :
    Nested U s a := by
  rcases ha with ⟨_, rfl⟩ | ⟨_, rfl⟩ | rfl <;>
  exact ⟨fun p hp => by cases p <;> simp [Act.by, Act.ofMessage, Act.ofRead] at hp; exact id,
   fun _ i _ hb => (by cases i <;> cases hb), fun _ i _ hb => by cases i <;> cases hb⟩

theorem _root_.Kafka.Conn.Nested.of_start {U : Uses} {s : Conn.State} {c : Nat} {job : Job}
    (he : ∀ c', U.encode c' = some (.calls (.do c)) → (s.calls c').pc = .encode)
    (hd : ∀ c', U.decode c' = some (.do c) → ∃ d, s.mpc = .decode d c') : Nested U s (.start c job) :=
  ⟨fun p hp => by cases p <;> simp [Act.by, Act.ofMessage, Act.ofRead] at hp,
   fun c' i hu hb => (by cases i <;> cases hb; exact he c' hu), fun c' i hu hb => by cases i <;> cases hb; exact hd c' hu⟩

theorem _root_.Kafka.Conn.Nested.of_close {U : Uses} {s : Conn.State} {k : Nat}
    (he : ∀ c', U.encode c' = some (.calls (.close k)) → (s.calls c').pc = .encode)
    (hd : ∀ c', U.decode c' = some (.close k) → ∃ d, s.mpc = .decode d c') : Nested U s (.close k) :=
  ⟨fun p hp => by cases p <;> simp [Act.by, Act.ofMessage, Act.ofRead] at hp; exact id,
   fun c' i hu hb => by
    cases i with
    | «do» j => cases hb
    | close k' => obtain ⟨rfl, _⟩ := hb; exact he c' hu,
   fun c' i hu hb => by
    cases i with
    | «do» j => cases hb
    | close k' => obtain ⟨rfl, _⟩ := hb; exact hd c' hu⟩

/-- A schedule that runs through, and after which only goroutines that wait could go on, followed by nothing for ever. -/
theorem nests_of_runs {P : Params} {U : Uses} {p : Conn.State → Prop} {as : List Act}
    (h : RunsTo P (Nested U) p as (Conn.init P)) (hc : ∀ s, p s → s.crashed = false)
    (hp : ∀ s, p s → ∀ q, CanGo P s q → Waits U s q) :
    ∃ st act, Nests P U st act ∧ (∀ m, as.length ≤ m → p (st m)) := by
  have hrun : ∀ (as : List Act) (s0 : Conn.State), RunsTo P (Nested U) p as s0 → ∃ st : Nat → Conn.State, st 0 = s0 ∧
      (∀ m a, as[m]? = some a → Nested U (st m) a ∧ Conn.step P a (st m) = some (st (m + 1))) ∧
      (∀ m, as.length ≤ m → st (m + 1) = st m) ∧ ∀ m, as.length ≤ m → p (st m) := by
    intro as
    induction as with
    | nil => exact fun s0 h => ⟨fun _ => s0, rfl, by simp, fun _ _ => rfl, fun _ _ => h⟩
    | cons b as ih =>
      intro s0 ⟨h1, s1, h2, h3⟩
      obtain ⟨st, g0, g1, g2, g3⟩ := ih s1 h3
      refine ⟨fun | 0 => s0 | m + 1 => st m, rfl, fun m a ha => ?_, fun m hm => ?_, fun m hm => ?_⟩
      · cases m with
        | zero =>
          simp only [List.getElem?_cons_zero, Option.some.injEq] at ha
          subst ha
          exact ⟨h1, by rw [h2, ← g0]⟩
        | succ m => exact g1 m a (by simpa using ha)
      · cases m with
        | zero => simp at hm
        | succ m => exact g2 m (by simpa using hm)
      · cases m with
        | zero => simp at hm
        | succ m => exact g3 m (by simpa using hm)
  obtain ⟨st, g0, g1, g2, g3⟩ := hrun as _ h
  have hex : Exec P st (fun m => as[m]?) := ⟨by rw [g0]; exact .init, fun m a ha => (g1 m a ha).2, fun m hm => g2 m (by simpa using hm)⟩
  refine ⟨st, fun m => as[m]?, ⟨hex, by rw [g0]; exact .init, fun m a ha => (g1 m a ha).1, fun q hq n => ?_, fun n => ?_⟩, g3⟩
  · obtain ⟨m, hm, h1, h2⟩ := hq as.length
    exact absurd (hp _ (g3 m hm) q h1) h2
  · cases hx : (st n).crashed with
    | false => rfl
    | true =>
      have h5 := crashed_stays hex hx (max n as.length) (Nat.le_max_left _ _)
      rw [hc _ (g3 _ (Nat.le_max_right _ _))] at h5
      cases h5

/-- Call 0 is in its `encode`, which calls `Do` or panics; another call, which may be the one `encode` makes, comes to wait for
`writeLock`; `messageLoop` waits for something to read. -/
def holdsUp : List Act :=
  [.start 0 sampleJob] ++ List.replicate 5 (.call 0) ++ [.start 1 sampleJob] ++ List.replicate 4 (.call 1) ++
  [.message] ++ List.replicate 5 (.ring .r)

/-- The claim is false at every size of an `encode` that calls `Do`, and of one that panics: the other call is never sent. -/
theorem C85_encode_fails {P : Params} (hP : 4 ≤ P.buf) (u : Use) (hu : u = .panics ∨ u = .calls (.do 1)) :
    ¬C85_statement P { encode := fun c => if c = 0 then some u else none } := by
  obtain ⟨N, B⟩ := P
  obtain ⟨B, rfl⟩ := Nat.exists_eq_add_of_le' hP
  obtain ⟨U, hU⟩ : ∃ U : Uses, U = { encode := fun c => if c = 0 then some u else none } := ⟨_, rfl⟩
  rw [← hU]
  have hd : ∀ c, U.decode c = none := fun c => by rw [hU]
  have he : ∀ c i, U.encode c = some (.calls i) → c = 0 ∧ i = .do 1 := fun c i hi => by
    rw [hU] at hi
    simp only at hi
    split at hi
    · rename_i h0
      refine ⟨h0, ?_⟩
      rcases hu with rfl | rfl <;> cases hi
      rfl
    · cases hi
  have hw1 : ∀ s, ¬Waits U s (.call 1) := fun s hw => by
    rcases hw.2 with h1 | ⟨i, h1, _⟩
    · rw [hU] at h1; simp at h1
    · exact absurd (he 1 i h1).1 (by decide)
  have hwm : ∀ s, ¬Waits U s .message := fun s ⟨_, c, i, _, h1, _⟩ => by rw [hd c] at h1; cases h1
  have h : RunsTo ⟨N, B + 4⟩ (Nested U) (fun s => s.crashed = false ∧ (s.calls 0).pc = .encode ∧ (s.calls 1).pc = .wlock ∧
      s.writeLock = some 0 ∧ (∀ c, 2 ≤ c → (s.calls c).pc = .absent) ∧ s.rawClosed = false ∧ s.lpc = .read ∧
      (∀ k, s.closers k = .absent) ∧ s.mpc = .inHead ∧ s.ring.rpc = .waitSend ∧ s.ring.wpc = .idle ∧ s.ring.closed = false)
      holdsUp (Conn.init ⟨N, B + 4⟩) := by
    unfold holdsUp Conn.init Ring.init sampleJob
    simp only [List.replicate, List.cons_append, List.nil_append]
    refine ⟨.of_start (fun c h => absurd (he c _ h).2 (by simp)) (fun c h => by rw [hd c] at h; cases h), _,
      (by simp [Conn.step, callStep, State.set, upd]; rfl), ?_⟩
    iterate 5 refine ⟨.of_call (by simp [Waits]), _, (by simp [Conn.step, callStep, State.set, upd]; rfl), ?_⟩
    refine ⟨.of_start (fun c h => by rw [(he c _ h).1]; rfl) (fun c h => by rw [hd c] at h; cases h), _,
      (by simp [Conn.step, callStep, State.set, upd]; rfl), ?_⟩
    iterate 4 refine ⟨.of_call (hw1 _), _, (by simp [Conn.step, callStep, State.set, upd]; rfl), ?_⟩
    refine ⟨.of_message (hwm _), _, (by
      simp [Conn.step, messageStep, readN, inRing, Ring.step, Ring.rStep, Ring.rLoop, Ring.rReturn, Ring.incr]; rfl), ?_⟩
    iterate 5 refine ⟨.of_ring (fun _ => hwm _), _, (by
      simp [Conn.step, messageStep, readN, inRing, Ring.step, Ring.rStep, Ring.rLoop, Ring.rReturn, Ring.incr]; rfl), ?_⟩
    refine ⟨rfl, rfl, rfl, rfl, fun c hc => ?_, rfl, rfl, fun _ => rfl, rfl, rfl, rfl, rfl⟩
    match c, hc with
    | c + 2, _ => rfl
  have hp := nests_of_runs h (fun s hs => hs.1) (fun s ⟨h1, h2, h3, h4, h5, h6, h7, h8, h9, h10, h11, h12⟩ q hq => by
    cases q with
    | message =>
      obtain ⟨a, ha, hst⟩ := hq
      cases a <;> simp [Act.ofMessage] at ha
      case message => simp [Conn.step, h1, messageStep, h9, h10] at hst
      case ring a =>
        cases a <;> simp [Ring.Action.ofReader] at ha <;>
          simp [Conn.step, h1, full, inRing, Ring.step, Ring.rStep, h10, h11, h12] at hst
    | read => have := hq.2 h7; rw [h6] at this; cases this
    | call c =>
      match c with
      | 0 =>
        refine ⟨h2, ?_⟩
        rcases hu with rfl | rfl
        · exact .inl (by rw [hU]; rfl)
        · exact .inr ⟨.do 1, by rw [hU]; rfl, fun ⟨o, ho⟩ => by rw [h3] at ho; cases ho⟩
      | 1 =>
        rcases hq with hq | ⟨hq, _⟩
        · rw [step_call h1] at hq; simp [callStep, h3, h4] at hq
        · rw [h6] at hq; cases hq
      | c + 2 =>
        rcases hq with hq | ⟨hq, _⟩
        · rw [step_call h1] at hq; simp [callStep, h5 (c + 2) (by omega)] at hq
        · rw [h6] at hq; cases hq
    | close k => exact absurd (h8 k) hq.1)
  obtain ⟨st, act, hn, hend⟩ := hp
  intro hst
  have hlate : ∀ n, ((st n).calls 1).pc = .recv ∨ (∃ o, ((st n).calls 1).pc = .done o) → False := fun n hx => by
    have hk := hn.exec.keep (I := fun s => (s.calls 1).pc = .recv ∨ ∃ o, (s.calls 1).pc = .done o) (n := n)
      (fun j _ a _ ht hi => by
        generalize st (j + 1) = s' at ht
        cases ht <;> simp only [State.set] <;> grind) hx (max n holdsUp.length) (Nat.le_max_left _ _)
    have := (hend _ (Nat.le_max_right n holdsUp.length)).2.2.1
    rw [this] at hk
    rcases hk with hk | ⟨o, hk⟩ <;> cases hk
  have hac : Takes st act := by
    refine takes_of_run (L := holdsUp.length) hn.exec fun m hm c rest hx => ?_
    obtain ⟨_, h2, h3, _, h5, _⟩ := hend m hm
    match c with
    | 0 => rw [h2] at hx; cases hx
    | 1 => rw [h3] at hx; cases hx
    | c + 2 => rw [h5 (c + 2) (by omega)] at hx; cases hx
  obtain ⟨m, _, hm⟩ := hst.sends st act hn hac holdsUp.length 1 (by rw [hU]; rfl)
    (by rw [(hend _ (Nat.le_refl _)).2.2.1]; simp)
  exact hlate m hm

/-- A request is sent; `messageLoop` waits, is woken by the reply and calls `decode`. -/
def toDecode : List Act :=
  callDo 0 ++ [.message] ++ List.replicate 5 (.ring .r) ++ [.read [0, 0, 0, 4, 0, 0, 0, 1]] ++ List.replicate 12 (.ring .w) ++
    [.ring .handR, .readNext] ++ List.replicate 6 (.ring .r) ++ [.message] ++ List.replicate 8 (.ring .r) ++
    List.replicate 5 .message

/-- `decode` calls `Do`, which sends its request; the peer answers. -/
def asksAgain : List Act :=
  toDecode ++ callDo 1 ++ [.read [0, 0, 0, 4, 0, 0, 0, 2]] ++ List.replicate 12 (.ring .w) ++ [.readNext]

/-- `decode` calls `Close`, which closes everything and waits. -/
def closesHere : List Act := toDecode ++ List.replicate 4 (.close 0) ++ [.readErr []]

/-- An execution with a `decode` that calls `Do`: the peer answers both requests, and neither call returns. -/
theorem C85_decodeDo_example {P : Params} (hN : 24 ≤ P.ring) (hP : 8 ≤ P.buf) :
    ∃ st act, Nests P { decode := fun c => if c = 0 then some (.do 1) else none } st act ∧ ∃ L, ∀ m, L ≤ m →
      (∃ d, (st m).mpc = .decode d 0) ∧ (st m).wire = [0, 0, 0, 1, 0, 0, 0, 2] ∧
      (st m).received = [0, 0, 0, 4, 0, 0, 0, 1, 0, 0, 0, 4, 0, 0, 0, 2] ∧
      ((st m).calls 0).pc = .recv ∧ ((st m).calls 1).pc = .recv := by
  obtain ⟨N, B⟩ := P
  obtain ⟨M, rfl⟩ := Nat.exists_eq_add_of_le' hN
  obtain ⟨B, rfl⟩ := Nat.exists_eq_add_of_le' hP
  have ew : Wire.int32 1 = [0, 0, 0, 1] := by rw [wire_int32]; rfl
  have ew2 : Wire.int32 2 = [0, 0, 0, 2] := by rw [wire_int32]; rfl
  have hs4 : headSize (0#8 :: 0#8 :: 0#8 :: 4#8 :: 0#8 :: 0#8 :: 0#8 :: 0#8 :: List.replicate B 0#8) = some 4 := rfl
  have hr4 : room (0#8 :: 0#8 :: 0#8 :: 4#8 :: 0#8 :: 0#8 :: 0#8 :: 0#8 :: List.replicate B 0#8) 4 =
      0#8 :: 0#8 :: 0#8 :: 4#8 :: 0#8 :: 0#8 :: 0#8 :: 0#8 :: List.replicate B 0#8 :=
    if_neg (by simp only [List.length_cons, List.length_replicate]; omega)
  obtain ⟨U, hU⟩ : ∃ U : Uses, U = { decode := fun c => if c = 0 then some (.do 1) else none } := ⟨_, rfl⟩
  have hd : ∀ c i, U.decode c = some i → c = 0 ∧ i = .do 1 := fun c i hi => by
    rw [hU] at hi
    simp only at hi
    split at hi <;> cases hi
    exact ⟨by assumption, rfl⟩
  have h0 : U.decode 0 = some (.do 1) := by rw [hU]; rfl
  have he : ∀ c, U.encode c = none := fun c => by rw [hU]
  rw [← hU]
  clear hU
  have hwc : ∀ s c, ¬Waits U s (.call c) := fun s c hw => by
    rcases hw.2 with h1 | ⟨i, h1, _⟩ <;> rw [he c] at h1 <;> cases h1
  have h : RunsTo ⟨M + 24, B + 8⟩ (Nested U) (fun s => s.crashed = false ∧ (s.calls 0).pc = .recv ∧ (s.calls 1).pc = .recv ∧
      (s.calls 0).chan = none ∧ (s.calls 1).chan = none ∧ (∀ c, 2 ≤ c → (s.calls c).pc = .absent) ∧ s.rawClosed = false ∧
      s.lpc = .read ∧ (∀ k, s.closers k = .absent) ∧ (∃ d, s.mpc = .decode d 0) ∧ s.wire = [0, 0, 0, 1, 0, 0, 0, 2] ∧
      s.received = [0, 0, 0, 4, 0, 0, 0, 1, 0, 0, 0, 4, 0, 0, 0, 2])
      asksAgain (Conn.init ⟨M + 24, B + 8⟩) := by
    unfold asksAgain toDecode callDo Conn.init Ring.init sampleJob
    simp only [List.replicate, List.cons_append, List.nil_append]
    refine ⟨.of_start (fun c h => by rw [he c] at h; cases h) (fun c h => absurd (hd c _ h).2 (by simp)), _,
      (by simp [Conn.step, callStep, State.set, upd]; rfl), ?_⟩
    iterate 6 refine ⟨.of_call (hwc _ _), _, (by simp [Conn.step, callStep, State.set, upd, ew]; rfl), ?_⟩
    iterate 2 refine ⟨.of_write (hwc _ _), _, (by simp [Conn.step, callStep, State.set, upd, ew]; rfl), ?_⟩
    iterate 2 refine ⟨.of_call (hwc _ _), _, (by simp [Conn.step, callStep, State.set, upd, ew]; rfl), ?_⟩
    refine ⟨.of_message (by simp [Waits]), _, (by
      simp [Conn.step, messageStep, readN, inRing, Ring.step, Ring.rStep, Ring.rLoop, Ring.rReturn, Ring.incr]; rfl), ?_⟩
    iterate 5 refine ⟨.of_ring (by simp [Waits]), _, (by
      simp [Conn.step, messageStep, readN, inRing, Ring.step, Ring.rStep, Ring.rLoop, Ring.rReturn, Ring.incr]; rfl), ?_⟩
    refine ⟨.of_read (.inl ⟨_, rfl⟩), _, (by
      simp [Conn.step, inRing, Ring.step, Ring.wStep, Ring.wLoop, Ring.wReturn, Ring.incr]; rfl), ?_⟩
    iterate 13 refine ⟨.of_ring (by simp [Waits]), _, (by
      simp [Conn.step, inRing, Ring.step, Ring.wStep, Ring.wLoop, Ring.wReturn, Ring.rWaited, Ring.incr]; rfl), ?_⟩
    refine ⟨.of_read (.inr (.inr rfl)), _, (by simp [Conn.step]; rfl), ?_⟩
    iterate 6 refine ⟨.of_ring (by simp [Waits]), _, (by
      simp [Conn.step, messageStep, readN, inRing, Ring.step, Ring.rStep, Ring.rLoop, Ring.rReturn, Ring.incr, List.replicate_succ]; rfl), ?_⟩
    refine ⟨.of_message (by simp [Waits]), _, (by simp [Conn.step, messageStep, readN, hs4, hr4, Ring.step]; rfl), ?_⟩
    iterate 8 refine ⟨.of_ring (by simp [Waits]), _, (by
      simp [Conn.step, messageStep, readN, inRing, Ring.step, Ring.rStep, Ring.rLoop, Ring.rReturn, Ring.incr, List.replicate_succ]; rfl), ?_⟩
    iterate 5 refine ⟨.of_message (by simp [Waits]), _, (by simp [Conn.step, messageStep, upd, State.set]; rfl), ?_⟩
    refine ⟨.of_start (fun c h => by rw [he c] at h; cases h) (fun c h => by rw [(hd c _ h).1]; exact ⟨_, rfl⟩), _,
      (by simp [Conn.step, callStep, State.set, upd]; rfl), ?_⟩
    iterate 6 refine ⟨.of_call (hwc _ _), _, (by simp [Conn.step, callStep, State.set, upd, ew2]; rfl), ?_⟩
    iterate 2 refine ⟨.of_write (hwc _ _), _, (by simp [Conn.step, callStep, State.set, upd, ew2]; rfl), ?_⟩
    iterate 2 refine ⟨.of_call (hwc _ _), _, (by simp [Conn.step, callStep, State.set, upd, ew2]; rfl), ?_⟩
    refine ⟨.of_read (.inl ⟨_, rfl⟩), _, (by
      simp [Conn.step, inRing, Ring.step, Ring.wStep, Ring.wLoop, Ring.wReturn, Ring.incr]; rfl), ?_⟩
    iterate 12 refine ⟨.of_ring (by simp [Ring.Action.ofReader]), _, (by
      simp [Conn.step, inRing, Ring.step, Ring.wStep, Ring.wLoop, Ring.wReturn, Ring.rWaited, Ring.incr]; rfl), ?_⟩
    refine ⟨.of_read (.inr (.inr rfl)), _, (by simp [Conn.step]; rfl), ?_⟩
    refine ⟨rfl, rfl, rfl, rfl, rfl, fun c hc => ?_, rfl, rfl, fun _ => rfl, ⟨_, rfl⟩, rfl, rfl⟩
    match c, hc with
    | c + 2, _ => rfl
  obtain ⟨st, act, hn, hend⟩ := nests_of_runs h (fun s hs => hs.1)
    (fun s ⟨h1, h2, h3, h4, h5, h6, h7, h8, h9, ⟨d, h10⟩, _⟩ q hq => by
    cases q with
    | message => exact ⟨d, 0, _, h10, h0, fun ⟨o, ho⟩ => by rw [h3] at ho; cases ho⟩
    | read => have := hq.2 h8; rw [h7] at this; cases this
    | call c =>
      rcases hq with hq | ⟨hq, _⟩
      · rw [step_call h1] at hq
        match c with
        | 0 => simp [callStep, h2, h4] at hq
        | 1 => simp [callStep, h3, h5] at hq
        | c + 2 => simp [callStep, h6 (c + 2) (by omega)] at hq
      · rw [h7] at hq; cases hq
    | close k => exact absurd (h9 k) hq.1)
  exact ⟨st, act, hn, _, fun m hm => by
    obtain ⟨_, h2, h3, _, _, _, _, _, _, h10, h11, h12⟩ := hend m hm
    exact ⟨h10, h11, h12, h2, h3⟩⟩

/-- An execution with a `decode` that calls `Close`: the reply is there, and neither the call nor `Close` returns. -/
theorem C85_decodeClose_example {P : Params} (hN : 16 ≤ P.ring) (hP : 8 ≤ P.buf) :
    ∃ st act, Nests P { decode := fun c => if c = 0 then some (.close 0) else none } st act ∧ ∃ L, ∀ m, L ≤ m →
      (∃ d, (st m).mpc = .decode d 0) ∧ (st m).received = [0, 0, 0, 4, 0, 0, 0, 1] ∧
      ((st m).calls 0).pc = .recv ∧ (st m).closers 0 = .waitMessage := by
  obtain ⟨N, B⟩ := P
  obtain ⟨M, rfl⟩ := Nat.exists_eq_add_of_le' hN
  obtain ⟨B, rfl⟩ := Nat.exists_eq_add_of_le' hP
  have ew : Wire.int32 1 = [0, 0, 0, 1] := by rw [wire_int32]; rfl
  have hs4 : headSize (0#8 :: 0#8 :: 0#8 :: 4#8 :: 0#8 :: 0#8 :: 0#8 :: 0#8 :: List.replicate B 0#8) = some 4 := rfl
  have hr4 : room (0#8 :: 0#8 :: 0#8 :: 4#8 :: 0#8 :: 0#8 :: 0#8 :: 0#8 :: List.replicate B 0#8) 4 =
      0#8 :: 0#8 :: 0#8 :: 4#8 :: 0#8 :: 0#8 :: 0#8 :: 0#8 :: List.replicate B 0#8 :=
    if_neg (by simp only [List.length_cons, List.length_replicate]; omega)
  obtain ⟨U, hU⟩ : ∃ U : Uses, U = { decode := fun c => if c = 0 then some (.close 0) else none } := ⟨_, rfl⟩
  have hd : ∀ c i, U.decode c = some i → c = 0 ∧ i = .close 0 := fun c i hi => by
    rw [hU] at hi
    simp only at hi
    split at hi <;> cases hi
    exact ⟨by assumption, rfl⟩
  have h0 : U.decode 0 = some (.close 0) := by rw [hU]; rfl
  have he : ∀ c, U.encode c = none := fun c => by rw [hU]
  rw [← hU]
  clear hU
  have hwc : ∀ s c, ¬Waits U s (.call c) := fun s c hw => by
    rcases hw.2 with h1 | ⟨i, h1, _⟩ <;> rw [he c] at h1 <;> cases h1
  have h : RunsTo ⟨M + 16, B + 8⟩ (Nested U) (fun s => s.crashed = false ∧ (s.calls 0).pc = .recv ∧
      (s.calls 0).chan = none ∧ (∀ c, 1 ≤ c → (s.calls c).pc = .absent) ∧ s.lpc = .exited ∧ s.ring.wpc = .idle ∧
      s.ring.rpc = .idle ∧ s.closers 0 = .waitMessage ∧ (∀ k, 1 ≤ k → s.closers k = .absent) ∧ (∃ d, s.mpc = .decode d 0) ∧
      s.received = [0, 0, 0, 4, 0, 0, 0, 1])
      closesHere (Conn.init ⟨M + 16, B + 8⟩) := by
    unfold closesHere toDecode callDo Conn.init Ring.init sampleJob
    simp only [List.replicate, List.cons_append, List.nil_append]
    refine ⟨.of_start (fun c h => by rw [he c] at h; cases h) (fun c h => absurd (hd c _ h).2 (by simp)), _,
      (by simp [Conn.step, callStep, State.set, upd]; rfl), ?_⟩
    iterate 6 refine ⟨.of_call (hwc _ _), _, (by simp [Conn.step, callStep, State.set, upd, ew]; rfl), ?_⟩
    iterate 2 refine ⟨.of_write (hwc _ _), _, (by simp [Conn.step, callStep, State.set, upd, ew]; rfl), ?_⟩
    iterate 2 refine ⟨.of_call (hwc _ _), _, (by simp [Conn.step, callStep, State.set, upd, ew]; rfl), ?_⟩
    refine ⟨.of_message (by simp [Waits]), _, (by
      simp [Conn.step, messageStep, readN, inRing, Ring.step, Ring.rStep, Ring.rLoop, Ring.rReturn, Ring.incr]; rfl), ?_⟩
    iterate 5 refine ⟨.of_ring (by simp [Waits]), _, (by
      simp [Conn.step, messageStep, readN, inRing, Ring.step, Ring.rStep, Ring.rLoop, Ring.rReturn, Ring.incr]; rfl), ?_⟩
    refine ⟨.of_read (.inl ⟨_, rfl⟩), _, (by
      simp [Conn.step, inRing, Ring.step, Ring.wStep, Ring.wLoop, Ring.wReturn, Ring.incr]; rfl), ?_⟩
    iterate 13 refine ⟨.of_ring (by simp [Waits]), _, (by
      simp [Conn.step, inRing, Ring.step, Ring.wStep, Ring.wLoop, Ring.wReturn, Ring.rWaited, Ring.incr]; rfl), ?_⟩
    refine ⟨.of_read (.inr (.inr rfl)), _, (by simp [Conn.step]; rfl), ?_⟩
    iterate 6 refine ⟨.of_ring (by simp [Waits]), _, (by
      simp [Conn.step, messageStep, readN, inRing, Ring.step, Ring.rStep, Ring.rLoop, Ring.rReturn, Ring.incr, List.replicate_succ]; rfl), ?_⟩
    refine ⟨.of_message (by simp [Waits]), _, (by simp [Conn.step, messageStep, readN, hs4, hr4, Ring.step]; rfl), ?_⟩
    iterate 8 refine ⟨.of_ring (by simp [Waits]), _, (by
      simp [Conn.step, messageStep, readN, inRing, Ring.step, Ring.rStep, Ring.rLoop, Ring.rReturn, Ring.incr, List.replicate_succ]; rfl), ?_⟩
    iterate 5 refine ⟨.of_message (by simp [Waits]), _, (by simp [Conn.step, messageStep, upd, State.set]; rfl), ?_⟩
    iterate 4 refine ⟨.of_close (fun c h => by rw [he c] at h; cases h) (fun c h => by rw [(hd c _ h).1]; exact ⟨_, rfl⟩), _,
      (by simp [Conn.step, closeStep, Ring.step]; rfl), ?_⟩
    refine ⟨.of_read (.inr (.inl ⟨_, rfl⟩)), _, (by simp [Conn.step]; rfl), ?_⟩
    refine ⟨rfl, rfl, rfl, fun c hc => ?_, rfl, rfl, rfl, rfl, fun k hk => ?_, ⟨_, rfl⟩, rfl⟩
    · match c, hc with
      | c + 1, _ => rfl
    · match k, hk with
      | k + 1, _ => rfl
  obtain ⟨st, act, hn, hend⟩ := nests_of_runs h (fun s hs => hs.1)
    (fun s ⟨h1, h2, h3, h4, h5, h6, h7, h8, h9, ⟨d, h10⟩, _⟩ q hq => by
    cases q with
    | message => exact ⟨d, 0, _, h10, h0, fun ho => by simp only [Inner.returned, h8] at ho; cases ho⟩
    | read =>
      obtain ⟨⟨a, ha, hst⟩, _⟩ := hq
      cases a <;> simp [Act.ofRead] at ha
      case ring a =>
        cases a <;> simp [Ring.Action.ofWriter] at ha <;>
          simp [Conn.step, h1, full, inRing, Ring.step, Ring.wStep, h6, h7] at hst
      all_goals simp [Conn.step, h1, h5] at hst
    | call c =>
      match c with
      | 0 =>
        rcases hq with hq | ⟨_, e, hq⟩
        · rw [step_call h1] at hq; simp [callStep, h2, h3] at hq
        · simp [Conn.step, h1, h2] at hq
      | c + 1 =>
        rcases hq with hq | ⟨_, e, hq⟩
        · rw [step_call h1] at hq; simp [callStep, h4 (c + 1) (by omega)] at hq
        · simp [Conn.step, h1, h4 (c + 1) (by omega)] at hq
    | close k =>
      match k with
      | 0 => have := hq.2; simp [Conn.step, h1, closeStep, h8, h10] at this
      | k + 1 => exact absurd (h9 (k + 1) (by omega)) hq.1)
  exact ⟨st, act, hn, _, fun m hm => by
    obtain ⟨_, h2, _, _, _, _, _, h8, _, h10, h11⟩ := hend m hm
    exact ⟨h10, h11, h2, h8⟩⟩

/-- The claim is false at every size of a `decode` that calls `Do`, and of one that calls `Close`. -/
theorem C85_decode_fails {P : Params} (hN : 24 ≤ P.ring) (hP : 8 ≤ P.buf) (i : Inner) (hi : i = .do 1 ∨ i = .close 0) :
    ¬C85_statement P { decode := fun c => if c = 0 then some i else none } := by
  intro hs
  rcases hi with rfl | rfl
  · obtain ⟨st, act, h1, L, h2⟩ := C85_decodeDo_example hN hP
    obtain ⟨⟨d, h3⟩, _, _, h4, _⟩ := h2 L (Nat.le_refl L)
    obtain ⟨m, hm, h5⟩ := hs.replies st act h1 L 0 d h3 h4
    rw [(h2 m hm).2.2.2.1] at h5
    cases h5
  · obtain ⟨st, act, h1, L, h2⟩ := C85_decodeClose_example (Nat.le_trans (by decide) hN) hP
    obtain ⟨m, hm, h5⟩ := hs.close st act h1 L 0 (by rw [(h2 L (Nat.le_refl L)).2.2.2]; simp)
    rw [(h2 m hm).2.2.2] at h5
    cases h5

/-- `encode` calls `Close`, which returns; then the write fails. -/
def closesFirst (e : WErr) : List Act :=
  [.start 0 sampleJob] ++ List.replicate 5 (.call 0) ++ List.replicate 4 (.close 0) ++ [.message, .readErr []] ++
  List.replicate 2 (.close 0) ++ [.call 0, .writeErr 0 0 e, .call 0]

/-- Non-trivial instance of `C85_partial`: an execution with an `encode` that calls `Close`.  Both calls return. -/
theorem C85_example {P : Params} (e : WErr) :
    ∃ st act, Nests P { encode := fun c => if c = 0 then some (.calls (.close 0)) else none } st act ∧ Takes st act ∧
      Makes { encode := fun c => if c = 0 then some (.calls (.close 0)) else none } st ∧
      ∃ L, ∀ m, L ≤ m → (st m).closers 0 = .done ∧ ((st m).calls 0).pc = .done (.flushErr e) := by
  obtain ⟨N, B⟩ := P
  have ew : Wire.int32 1 = [0, 0, 0, 1] := by rw [wire_int32]; rfl
  obtain ⟨U, hU⟩ : ∃ U : Uses, U = { encode := fun c => if c = 0 then some (.calls (.close 0)) else none } := ⟨_, rfl⟩
  have he : ∀ c i, U.encode c = some i → c = 0 ∧ i = .calls (.close 0) := fun c i hi => by
    rw [hU] at hi
    simp only at hi
    split at hi <;> cases hi
    exact ⟨by assumption, rfl⟩
  have hd : ∀ c, U.decode c = none := fun c => by rw [hU]
  rw [← hU]
  clear hU
  have hwm : ∀ s, ¬Waits U s .message := fun s ⟨_, c, i, _, h1, _⟩ => by rw [hd c] at h1; cases h1
  have hwc : ∀ s, (s.calls 0).pc ≠ .encode ∨ s.closers 0 = .done → ¬Waits U s (.call 0) := fun s h hw => by
    rcases h with h | h
    · exact h hw.1
    · rcases hw.2 with h1 | ⟨i, h1, h2⟩
      · cases (he 0 _ h1).2
      · cases (he 0 _ h1).2
        exact h2 h
  have h : RunsTo ⟨N, B⟩ (Nested U) (fun s => s.crashed = false ∧ (s.calls 0).pc = .done (.flushErr e) ∧
      (∀ c, 1 ≤ c → (s.calls c).pc = .absent) ∧ s.lpc = .exited ∧ s.mpc = .exited ∧ s.ring.wpc = .idle ∧
      s.ring.rpc = .idle ∧ s.closers 0 = .done ∧ ∀ k, 1 ≤ k → s.closers k = .absent)
      (closesFirst e) (Conn.init ⟨N, B⟩) := by
    unfold closesFirst Conn.init Ring.init sampleJob
    simp only [List.replicate, List.cons_append, List.nil_append]
    refine ⟨.of_start (fun c h => by cases (he c _ h).2) (fun c h => by rw [hd c] at h; cases h), _,
      (by simp [Conn.step, callStep, State.set, upd]; rfl), ?_⟩
    iterate 5 refine ⟨.of_call (hwc _ (.inl (by simp))), _, (by simp [Conn.step, callStep, State.set, upd]; rfl), ?_⟩
    iterate 4 refine ⟨.of_close (fun c h => by rw [(he c _ h).1]; rfl) (fun c h => by rw [hd c] at h; cases h), _,
      (by simp [Conn.step, closeStep, Ring.step]; rfl), ?_⟩
    refine ⟨.of_message (hwm _), _, (by simp [Conn.step, messageStep]; rfl), ?_⟩
    refine ⟨.of_read (.inr (.inl ⟨_, rfl⟩)), _, (by simp [Conn.step]; rfl), ?_⟩
    iterate 2 refine ⟨.of_close (fun c h => by rw [(he c _ h).1]; rfl) (fun c h => by rw [hd c] at h; cases h), _,
      (by simp [Conn.step, closeStep, Ring.step]; rfl), ?_⟩
    refine ⟨.of_call (hwc _ (.inr rfl)), _, (by simp [Conn.step, callStep, State.set, upd, ew]; rfl), ?_⟩
    refine ⟨.of_writeErr (hwc _ (.inr rfl)), _, (by simp [Conn.step, callStep, State.set, upd]; rfl), ?_⟩
    refine ⟨.of_call (hwc _ (.inr rfl)), _, (by simp [Conn.step, callStep, State.set, upd]; rfl), ?_⟩
    refine ⟨rfl, rfl, fun c hc => ?_, rfl, rfl, rfl, rfl, rfl, fun k hk => ?_⟩
    · match c, hc with
      | c + 1, _ => rfl
    · match k, hk with
      | k + 1, _ => rfl
  obtain ⟨st, act, hn, hend⟩ := nests_of_runs h (fun s hs => hs.1)
    (fun s ⟨h1, h2, h3, h4, h5, h6, h7, h8, h9⟩ q hq => by
    cases q with
    | message =>
      obtain ⟨a, ha, hst⟩ := hq
      cases a <;> simp [Act.ofMessage] at ha
      case message => simp [Conn.step, h1, messageStep, h5] at hst
      case ring a =>
        cases a <;> simp [Ring.Action.ofReader] at ha <;>
          simp [Conn.step, h1, full, inRing, Ring.step, Ring.rStep, h6, h7] at hst
    | read =>
      obtain ⟨⟨a, ha, hst⟩, _⟩ := hq
      cases a <;> simp [Act.ofRead] at ha
      case ring a =>
        cases a <;> simp [Ring.Action.ofWriter] at ha <;>
          simp [Conn.step, h1, full, inRing, Ring.step, Ring.wStep, h6, h7] at hst
      all_goals simp [Conn.step, h1, h4] at hst
    | call c =>
      match c with
      | 0 =>
        rcases hq with hq | ⟨_, e, hq⟩
        · rw [step_call h1] at hq; simp [callStep, h2] at hq
        · simp [Conn.step, h1, h2] at hq
      | c + 1 =>
        rcases hq with hq | ⟨_, e, hq⟩
        · rw [step_call h1] at hq; simp [callStep, h3 (c + 1) (by omega)] at hq
        · simp [Conn.step, h1, h3 (c + 1) (by omega)] at hq
    | close k =>
      match k with
      | 0 => have := hq.2; simp [Conn.step, h1, closeStep, h8] at this
      | k + 1 => exact absurd (h9 (k + 1) (by omega)) hq.1)
  refine ⟨st, act, hn, takes_of_run (L := (closesFirst e).length) hn.exec fun m hm c rest hx => ?_, fun n c i hu _ => ?_, _,
    fun m hm => ⟨(hend m hm).2.2.2.2.2.2.2.1, (hend m hm).2.1⟩⟩
  · obtain ⟨_, h2, h3, _⟩ := hend m hm
    match c with
    | 0 => rw [h2] at hx; cases hx
    | c + 1 => rw [h3 (c + 1) (by omega)] at hx; cases hx
  · cases (he c _ hu).2
    refine ⟨max n (closesFirst e).length, Nat.le_max_left _ _, ?_⟩
    have := (hend _ (Nat.le_max_right n (closesFirst e).length)).2.2.2.2.2.2.2.1
    simp only [Inner.made]
    rw [this]; simp

end Kafka.Props
