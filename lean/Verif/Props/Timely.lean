import Verif.Ring.Blank
import Verif.Ring.Fresh
import Verif.Props.Ring
/-!
C25, exactly: the schedules in which the ring buffer is a queue whatever the bytes passed.  C27, exactly: when
`WriteN` of a single byte wakes the reader.  C28 for a weaker condition.
-/
set_option linter.unusedSimpArgs false

namespace Kafka.Props

open Kafka Kafka.Ring

/-- A reader that reads the next byte of the storage does so after that byte has been put there, and before
`N` further bytes have been put (the `N`-th goes to the same cell). -/
def InTime (N : Nat) (s : State) (a : Action) : Prop :=
  a = .r → s.rpc = .get → s.got.length < s.put.length ∧ s.put.length ≤ s.got.length + N

instance (N : Nat) (s : State) (a : Action) : Decidable (InTime N s a) := by
  unfold InTime
  infer_instance

theorem wLoop_got (s : State) : (wLoop s).got = s.got ∧ (wLoop s).given = s.given := by
  unfold wLoop; split <;> exact ⟨rfl, rfl⟩

theorem rLoop_got (s : State) : (rLoop s).got = s.got ∧ (rLoop s).given = s.given := by
  unfold rLoop
  split
  · split <;> exact ⟨rfl, rfl⟩
  · exact ⟨rfl, rfl⟩

/-- Only the assignment in `ReadN` reads a cell. -/
theorem step_got {N : Nat} {a : Action} {s s' : State} (h : step N a s = some s') :
    s'.got = s.got ∨ a = .r ∧ s.rpc = .get ∧ s'.got = s.got ++ [s.mem s.rpos] := by
  cases a
  case r =>
    simp only [step, rStep] at h
    split at h
    case h_10 hpc =>
      right
      refine ⟨rfl, hpc, ?_⟩
      simp only [Option.some.injEq] at h
      subst h
      simp [rLoop_got]
    all_goals
      left
      (repeat' split at h) <;> simp only [Option.some.injEq, reduceCtorEq] at h <;> subst h <;>
        simp [rWaited, rReturn, rLoop_got]
  all_goals
    left
    simp only [step, wStep] at h
    (repeat' split at h) <;> simp only [Option.some.injEq, reduceCtorEq] at h <;> subst h <;>
      simp [wWaited, wReleased, wReturn, rWaited, rReturn, wLoop_got]

/-- Only a call of `WriteN` gives bytes. -/
theorem step_given {N : Nat} {a : Action} {s s' : State} (h : step N a s = some s') :
    s'.given = s.given ++ (match a with | .callW data n => data.take n | _ => []) ∧
      (∀ data n, a = .callW data n → n ≤ data.length) := by
  cases a
  case callW data n =>
    simp only [step] at h
    split at h
    · rename_i hc
      cases h
      refine ⟨rfl, ?_⟩
      rintro _ _ ⟨⟩
      exact hc.2
    · cases h
  all_goals
    refine ⟨?_, by rintro _ _ ⟨⟩⟩
    simp only [step, wStep, rStep] at h
    (repeat' split at h) <;> simp only [Option.some.injEq, reduceCtorEq] at h <;> subst h <;>
      simp [wWaited, wReleased, wReturn, rWaited, rReturn, wLoop_got, rLoop_got]

theorem step_put {N : Nat} {a : Action} {s s' : State} (h : step N a s = some s') : s.put <+: s'.put := by
  rcases step_cells h with ⟨-, h2⟩ | ⟨b, -, h2, -⟩
  · rw [h2]
    exact List.prefix_rfl
  · rw [h2]
    exact List.prefix_append _ _

theorem getD_lt {l : List Byte} {i : Nat} (h : i < l.length) : l.getD i 0 = l[i] := by
  rw [List.getD_eq_getElem?_getD, List.getElem?_eq_getElem h, Option.getD_some]

theorem blank_rpc {s t : State} (h : t.blank = s.blank) : t.rpc = s.rpc := by
  have := congrArg State.rpc h
  exact this

theorem Reach.inTime {N : Nat} (hN : 0 < N) {s : State} (h : Reach N (InTime N) s) : s.got <+: s.put := by
  refine Reach.inv (P := fun s => s.got <+: s.put) (by simp [Ring.init]) ?_ h
  intro a s s' hr hp hok hs
  rcases step_got hs with h1 | ⟨ha, hpc, h1⟩
  · rw [h1]
    exact hp.trans (step_put hs)
  · obtain ⟨h2, h3⟩ := hok ha hpc
    rw [h1, (hr.pos hN).rpos (by rw [hpc]; rfl), (hr.hist hN).last _ h2 h3]
    exact (prefix_snoc hp h2).trans (step_put hs)

/-- **C25.**  In every schedule in which each byte is read in time, the buffer is a queue.  Missing for the full
claim: the code does not ensure that it is (`C25_fails`).  No weaker condition on schedules would do
(`C25_exact`). -/
theorem C25_inTime_partial {N : Nat} (hN : 0 < N) : C25_statement N (InTime N) := by
  intro s h
  have hc := h.calls
  have h1 : s.taken <+: s.got := ⟨_, hc.taken.symm⟩
  have h2 : s.put <+: s.given := ⟨_, hc.given.symm⟩
  exact h1.trans ((Reach.inTime hN h).trans h2)

/-- The condition is weaker than that of `C25_partial`. -/
theorem paced_inTime {N : Nat} (hN : 2 ≤ N) {s : State} (h : Reach N (Paced N) s) : Reach N (InTime N) s := by
  induction h with
  | init => exact .init
  | @step s s' a hr hok hs ih =>
    refine ih.step a ?_ hs
    intro ha hpc
    have hf := hr.fifo hN (fun _ _ h => h)
    have hp := hr.pos (by omega)
    have h1 := hf.room
    have h2 := hp.pub_le
    have h3 := hp.rel_le
    have h4 := hp.rpub_le
    subst ha
    refine ⟨?_, by omega⟩
    cases hres : s.rres with
    | true => exact Nat.lt_of_lt_of_le (hok hres hpc) h2
    | false => exact Nat.lt_of_lt_of_le (hf.rget hpc hres) (by omega)

/-! ### Exactness -/

/-- Two schedules differ in the bytes of the slices passed only. -/
def SameCalls (as bs : List Action) : Prop := bs.map Action.blank = as.map Action.blank

/-- The schedule `as`, run from a new buffer, reads each byte in time. -/
def AllInTime (N : Nat) (as : List Action) : Prop := ∀ x ∈ trace N as init, InTime N x.1 x.2

/-- The schedule with other bytes: the `i`-th byte given to `WriteN` is `f i`. -/
def relabel (f : Nat → Byte) : Nat → List Action → List Action
  | _, [] => []
  | g, .callW data n :: as => .callW (data.mapIdx fun i _ => f (g + i)) n :: relabel f (g + n) as
  | g, a :: as => a :: relabel f g as

theorem relabel_same (f : Nat → Byte) : ∀ (as : List Action) (g : Nat), SameCalls as (relabel f g as)
  | [], _ => rfl
  | a :: as, g => by
    have h := fun g => relabel_same f as g
    simp only [SameCalls] at h
    cases a <;> simp only [SameCalls, relabel, List.map_cons, h, List.cons.injEq, and_true]
    case callW data n =>
      simp only [Action.blank, Action.callW.injEq, and_true, zeros]
      exact List.ext_getElem (by simp) (by simp)

theorem relabel_given {N : Nat} {f : Nat → Byte} : ∀ {as : List Action} {g : Nat} {t t' : State},
    run N (relabel f g as) t = some t' → t.given = (List.range g).map f →
    t'.given = (List.range t'.given.length).map f
  | [], g, t, t', h, hg => by
    cases h
    rw [hg]
    simp
  | a :: as, g, t, t', h, hg => by
    cases a
    case callW data n =>
      obtain ⟨t1, h1, h2⟩ := Option.bind_eq_some_iff.1 h
      obtain ⟨h3, h4⟩ := step_given h1
      have h5 := h4 _ _ rfl
      rw [List.length_mapIdx] at h5
      refine relabel_given h2 ?_
      rw [h3, hg, List.range_add, List.map_append]
      congr 1
      apply List.ext_getElem
      · simp [h5]
      · intro i h6 h7
        simp
    all_goals
      obtain ⟨t1, h1, h2⟩ := Option.bind_eq_some_iff.1 h
      refine relabel_given h2 ?_
      rw [(step_given h1).1, hg]
      simp

/-- What a cell holds: a byte put, or zero. -/
theorem Ring.Hist.cell {N : Nat} (hN : 0 < N) {s : State} (h : Hist N s) (k : Nat) :
    s.mem (k % N) = 0 ∨
      ∃ j, j < s.put.length ∧ s.put.length ≤ j + N ∧ j % N = k % N ∧ s.mem (k % N) = s.put.getD j 0 := by
  have hk := Nat.mod_lt k hN
  by_cases h1 : s.put.length ≤ k % N
  · exact .inl (h.fresh _ h1 hk)
  · right
    have e1 := Nat.div_add_mod (s.put.length - 1 - k % N) N
    have e2 := Nat.mod_lt (s.put.length - 1 - k % N) hN
    have e3 : (k % N + N * ((s.put.length - 1 - k % N) / N)) % N = k % N := by
      rw [Nat.add_mul_mod_self_left, Nat.mod_mod]
    refine ⟨k % N + N * ((s.put.length - 1 - k % N) / N), by omega, by omega, e3, ?_⟩
    rw [← h.last _ (by omega) (by omega), e3]

theorem run_got {N : Nat} : ∀ {as : List Action} {s s' : State}, run N as s = some s' → s.got <+: s'.got ∧ s.given <+: s'.given
  | [], _, _, h => by cases h; exact ⟨List.prefix_rfl, List.prefix_rfl⟩
  | a :: as, s, s', h => by
    obtain ⟨s1, h1, h2⟩ := Option.bind_eq_some_iff.1 h
    obtain ⟨h3, h4⟩ := run_got h2
    refine ⟨?_, ((step_given h1).1 ▸ List.prefix_append _ _).trans h4⟩
    rcases step_got h1 with h5 | ⟨-, -, h5⟩
    · exact h5 ▸ h3
    · exact (h5 ▸ List.prefix_append _ _).trans h3

theorem run_blank {N : Nat} {as bs : List Action} (h : SameCalls as bs) {s : State} (hs : run N as init = some s) :
    ∃ t, run N bs init = some t ∧ t.blank = s.blank := by
  have h1 := blank_run N as init
  have h2 := blank_run N bs init
  rw [h, h1, hs] at h2
  cases ht : run N bs init with
  | none => rw [ht] at h2; cases h2
  | some t =>
    rw [ht] at h2
    exact ⟨t, rfl, (Option.some.inj h2).symm⟩

/-- A schedule in which some byte is not read in time, up to the first such moment. -/
theorem not_inTime {N : Nat} : ∀ {as : List Action} {s : State}, (∃ x ∈ trace N as s, ¬InTime N x.1 x.2) →
    ∃ as1 as2 s1, as = as1 ++ .r :: as2 ∧ run N as1 s = some s1 ∧ ¬InTime N s1 .r
  | [], _, ⟨_, h, _⟩ => by cases h
  | a :: as, s, ⟨x, hx, hn⟩ => by
    rw [trace, List.mem_cons] at hx
    rcases hx with rfl | hx
    · by_cases ha : a = .r
      · subst ha
        exact ⟨[], as, s, rfl, rfl, hn⟩
      · exact absurd (fun h => absurd h ha) hn
    · cases hs : step N a s with
      | none => rw [hs] at hx; cases hx
      | some s1 =>
        rw [hs] at hx
        obtain ⟨as1, as2, s2, h1, h2, h3⟩ := not_inTime (s := s1) ⟨x, hx, hn⟩
        exact ⟨a :: as1, as2, s2, by rw [h1]; rfl, by rw [run, hs]; exact h2, h3⟩

theorem run_split {N : Nat} : ∀ {as bs : List Action} {s s' : State}, run N (as ++ bs) s = some s' →
    ∃ s1, run N as s = some s1 ∧ run N bs s1 = some s'
  | [], _, s, _, h => ⟨s, rfl, h⟩
  | a :: as, bs, s, s', h => by
    obtain ⟨s1, h1, h2⟩ := Option.bind_eq_some_iff.1 h
    obtain ⟨s2, h3, h4⟩ := run_split h2
    exact ⟨s2, by rw [run, h1]; exact h3, h4⟩

theorem inTime_blank {N : Nat} {s t : State} (h : t.blank = s.blank) (a : Action) : InTime N t a ↔ InTime N s a := by
  have h1 : t.rpc = s.rpc := blank_rpc h
  have h2 : t.got.length = s.got.length := by
    have := congrArg (fun s => s.got.length) h
    simpa only [State.blank, zeros_length] using this
  have h3 : t.put.length = s.put.length := by
    have := congrArg (fun s => s.put.length) h
    simpa only [State.blank, zeros_length] using this
  rw [InTime, InTime, h1, h2, h3]

theorem trace_reach {N : Nat} : ∀ {as : List Action} {ok : State → Action → Prop} {s s' : State}, Reach N ok s →
    run N as s = some s' → (∀ x ∈ trace N as s, ok x.1 x.2) → Reach N ok s' :=
  fun h hr ht => reach_trace _ h ht hr

theorem allInTime_same {N : Nat} : ∀ {as bs : List Action} {s t : State}, bs.map Action.blank = as.map Action.blank →
    t.blank = s.blank → (∀ x ∈ trace N as s, InTime N x.1 x.2) → ∀ x ∈ trace N bs t, InTime N x.1 x.2
  | [], [], _, _, _, _, _ => by simp [trace]
  | [], _ :: _, _, _, h, _, _ => by cases h
  | _ :: _, [], _, _, h, _, _ => by cases h
  | a :: as, b :: bs, s, t, h, hst, ha => by
    obtain ⟨h1, h2⟩ := List.cons.inj h
    intro x hx
    rw [trace, List.mem_cons] at hx
    rcases hx with rfl | hx
    · have h3 := (inTime_blank hst a).2 (ha (s, a) (by simp [trace]))
      intro hb
      refine h3 ?_
      cases hb
      cases a <;> simp_all [Action.blank]
    · have e1 := blank_step N a s
      have e2 := blank_step N b t
      rw [h1, hst, e1] at e2
      cases hs : step N a s with
      | none =>
        rw [hs] at e2
        cases ht : step N b t with
        | none => rw [ht] at hx; cases hx
        | some t1 => rw [ht] at e2; cases e2
      | some s1 =>
        cases ht : step N b t with
        | none => rw [ht] at hx; cases hx
        | some t1 =>
          rw [hs, ht] at e2
          rw [ht] at hx
          exact allInTime_same h2 (Option.some.inj e2).symm (fun y hy => ha y (by simp [trace, hs, hy])) x hx

/-- **C25, exactly.**  Take a schedule that leaves no `ReadN` unfinished.  What the calls of `ReadN` return is what
the calls of `WriteN` were given, whatever the bytes, if and only if each byte is read in time. -/
theorem C25_exact {N : Nat} (hN : 0 < N) {as : List Action} {s : State} (hs : run N as init = some s)
    (hi : s.rpc = .idle) :
    (∀ bs t, SameCalls as bs → run N bs init = some t → t.taken <+: t.given) ↔ AllInTime N as := by
  constructor
  · intro h
    refine Classical.byContradiction fun hn => ?_
    obtain ⟨as1, as2, s1, rfl, h1, h2⟩ := not_inTime (by simpa [AllInTime] using hn)
    have hk : s1.rpc = .get ∧ ¬(s1.got.length < s1.put.length ∧ s1.put.length ≤ s1.got.length + N) := by
      simpa [InTime] using h2
    obtain ⟨f, hf⟩ : ∃ f : Nat → Byte, f = fun i => if i = s1.got.length then 1 else 0 := ⟨_, rfl⟩
    have hsame := relabel_same f (as1 ++ .r :: as2) 0
    obtain ⟨t, ht, hts⟩ := run_blank hsame hs
    have hg := relabel_given ht rfl
    have hpre := h _ t hsame ht
    -- the relabelled schedule, split at the same place
    obtain ⟨bs1, bs2, he, hb1, hb2⟩ : ∃ bs1 bs2, relabel f 0 (as1 ++ .r :: as2) = bs1 ++ .r :: bs2 ∧
        SameCalls as1 bs1 ∧ bs1.length = as1.length := by
      have e : (relabel f 0 (as1 ++ .r :: as2)).map Action.blank = as1.map Action.blank ++ (.r :: as2.map Action.blank) := by
        rw [hsame]; simp [Action.blank]
      obtain ⟨bs1, l2, h3, h4, h5⟩ := List.map_eq_append_iff.1 e
      obtain ⟨b, bs2, rfl, h6, h7⟩ := List.map_eq_cons_iff.1 h5
      have : b = .r := by
        clear h7 h5 e h4 h3
        cases b <;> simp [Action.blank] at h6 ⊢
      subst this
      exact ⟨bs1, bs2, h3, h4, by simpa using congrArg List.length h4⟩
    rw [he] at ht
    obtain ⟨t1, ht1, ht2⟩ := run_split ht
    obtain ⟨t1', ht1', hts1⟩ := run_blank hb1 h1
    rw [ht1] at ht1'
    cases ht1'
    obtain ⟨t2, ht3, ht4⟩ := Option.bind_eq_some_iff.1 ht2
    have hpc : t1.rpc = .get := (blank_rpc hts1).trans hk.1
    have hgl : t1.got.length = s1.got.length := by
      have := congrArg (fun s => s.got.length) hts1
      simpa only [State.blank, zeros_length] using this
    have hpl : t1.put.length = s1.put.length := by
      have := congrArg (fun s => s.put.length) hts1
      simpa only [State.blank, zeros_length] using this
    have hr1 : Reach N Any t1 := reach_of_run ht1
    have hput1 : t1.put <+: t1.given := ⟨_, hr1.calls.given.symm⟩
    have hput : t1.put <+: t.given := hput1.trans (run_got ht2).2
    have hmem : t1.mem (t1.got.length % N) = 0 := by
      rcases Ring.Hist.cell hN (hr1.hist hN) t1.got.length with h3 | ⟨j, h3, h4, h5, h6⟩
      · exact h3
      · rw [h6, getD_lt h3, hput.getElem h3]
        have hlt : j < t.given.length := Nat.lt_of_lt_of_le h3 hput.length_le
        have hne : j ≠ s1.got.length := by
          rintro rfl
          exact hk.2 ⟨by omega, by omega⟩
        have : t.given[j] = ((List.range t.given.length).map f)[j]'(by simpa using hlt) := by
          simp only [← hg]
        rw [this]
        simp [hf, hne]
    have hgot : t2.got = t1.got ++ [0] := by
      rcases step_got ht3 with h3 | ⟨-, -, h3⟩
      · exfalso
        simp only [step, rStep, hpc, Option.some.injEq] at ht3
        subst ht3
        simp [rLoop_got] at h3
      · rw [h3, (hr1.pos hN).rpos (by rw [hpc]; rfl), hmem]
    have hti : t.rpc = .idle := (blank_rpc hts).trans hi
    have htk : t.got = t.taken := by
      have := (reach_of_run ht).calls.taken
      rwa [hti, RPc.read, List.take_zero, List.append_nil] at this
    have hfin : t1.got ++ [0] <+: t.given := by
      rw [← hgot]
      exact ((run_got ht4).1).trans (htk ▸ hpre)
    have hlt : t1.got.length < t.given.length := by
      have := hfin.length_le
      simp at this
      omega
    have e1 := hfin.getElem (i := t1.got.length) (by simp)
    have e2 : t.given[t1.got.length] = ((List.range t.given.length).map f)[t1.got.length]'(by simpa using hlt) := by
      simp only [← hg]
    rw [e2] at e1
    simp [hf, hgl] at e1
  · intro h bs t hb ht
    exact C25_inTime_partial hN t (reach_trace bs .init (allInTime_same hb rfl h) ht)

/-- A schedule of `C25_exact` that is in time although it is not paced: the reader, woken, reads a byte that has been
put but not published yet. -/
example : ∃ as s, run 16 as init = some s ∧ s.rpc = .idle ∧ s.taken = [1, 2, 3, 4] ∧ AllInTime 16 as := by
  let as : List Action := [.callR [9, 9, 9, 9] 4, .r, .r, .r, .r, .r,
    .callW [1, 2] 2, .w, .w, .w, .w, .w, .w, .handR, .callW [3, 4] 2, .w, .w, .w, .w, .r, .r, .r, .r, .r, .r]
  refine ⟨as, (run 16 as init).get (by decide +kernel), by simp, by decide +kernel, by decide +kernel, ?_⟩
  unfold AllInTime
  decide +kernel

/-- And one that is not: that of `C25_fails`. -/
example : ∃ s, run 16 shortSchedule init = some s ∧ s.rpc = .idle ∧ ¬AllInTime 16 shortSchedule := by
  refine ⟨(run 16 shortSchedule init).get (by decide +kernel), by simp, by decide +kernel, ?_⟩
  unfold AllInTime
  decide +kernel

/-! ## C27 for single bytes -/

/-- The writer is in a `WriteN` of one byte that does not fill the buffer (or has returned from it); the reader waits. -/
def Passing (N : Nat) (s : State) : Prop :=
  s.closed = false ∧ s.rpc = .waitSend ∧ s.wn = 1 ∧
    match s.wpc with
    | .load1 => incr N (incr N s.next) ≠ s.start
    | .load2 => incr N (incr N s.wpos) ≠ s.start
    | .put => incr N (incr N s.wpos) ≠ s.wstart ∧ s.wi = 0 ∧ s.wwrote = 0
    | .fstore => s.wwrote = 0
    | .idle => True
    | _ => False

/-- The writer is in a `WriteN` of one byte that fills the buffer, and has not woken the reader yet. -/
def Filling (N : Nat) (s : State) : Prop :=
  s.closed = false ∧ s.rpc = .waitSend ∧ s.wn = 1 ∧
    match s.wpc with
    | .load1 => incr N (incr N s.next) = s.start ∧ s.rset = true
    | .load2 => incr N (incr N s.wpos) = s.start ∧ s.rset = true
    | .put => incr N (incr N s.wpos) = s.wstart ∧ s.rset = true
    | .store | .relCas => s.rset = true
    | .relRecv => True
    | _ => False

theorem Passing.step {N : Nat} {a : Action} {s s' : State} (h : Passing N s) (hw : ∀ d m, a ≠ .callW d m)
    (hc : a ≠ .close) (hs : step N a s = some s') : Passing N s' ∧ a ≠ .handR := by
  obtain ⟨h1, h2, h3, h4⟩ := h
  cases a with
  | close => exact absurd rfl hc
  | callW data n => exact absurd rfl (hw _ _)
  | callR dst n => simp [Ring.step, h2] at hs
  | r => simp [Ring.step, rStep, h2, h1] at hs
  | handW =>
    simp only [Ring.step] at hs
    split at hs
    · rename_i h; simp [h] at h4
    · simp at hs
  | handR =>
    simp only [Ring.step, h2, if_true] at hs
    split at hs
    · rename_i h; simp [h] at h4
    · split at hs
      · rename_i h; simp [h] at h4
      · simp at hs
  | w =>
    refine ⟨?_, by simp⟩
    simp only [Ring.step] at hs
    unfold wStep at hs
    split at hs <;> rename_i hpc <;> simp only [hpc] at h4 <;> try contradiction
    · simp only [Option.some.injEq] at hs; subst hs
      exact ⟨h1, h2, h3, h4⟩
    · simp only [Option.some.injEq, wLoop, h3, Nat.zero_lt_one, if_true] at hs; subst hs
      exact ⟨h1, h2, rfl, h4, rfl, rfl⟩
    · simp only [h4.1, if_false, Option.some.injEq, wLoop, h3, h4.2.1, Nat.zero_add, Nat.lt_irrefl] at hs; subst hs
      exact ⟨h1, h2, rfl, h4.2.2⟩
    · simp only [h3, h4, Option.some.injEq, Nat.zero_add, gt_iff_lt, Nat.lt_irrefl, if_false, wReturn] at hs; subst hs
      exact ⟨h1, h2, rfl, trivial⟩

theorem Filling.step {N : Nat} {a : Action} {s s' : State} (h : Filling N s) (ha : a ≠ .handR)
    (hc : a ≠ .close) (hs : step N a s = some s') : Filling N s' := by
  obtain ⟨h1, h2, h3, h4⟩ := h
  cases a with
  | handR => exact absurd rfl ha
  | close => exact absurd rfl hc
  | callW data n =>
    simp only [Ring.step] at hs
    split at hs
    · rename_i h; simp [h.1] at h4
    · simp at hs
  | callR dst n => simp [Ring.step, h2] at hs
  | r => simp [Ring.step, rStep, h2, h1] at hs
  | handW =>
    simp only [Ring.step] at hs
    split at hs
    · rename_i h; simp [h] at h4
    · simp at hs
  | w =>
    simp only [Ring.step] at hs
    unfold wStep at hs
    split at hs <;> rename_i hpc <;> simp only [hpc] at h4 <;> try contradiction
    · simp only [Option.some.injEq] at hs; subst hs
      exact ⟨h1, h2, h3, h4⟩
    · simp only [Option.some.injEq, wLoop, h3, Nat.zero_lt_one, if_true] at hs; subst hs
      exact ⟨h1, h2, rfl, h4⟩
    · simp only [h4.1, if_true, Option.some.injEq] at hs; subst hs
      exact ⟨h1, h2, h3, h4.2⟩
    · simp only [Option.some.injEq] at hs; subst hs
      exact ⟨h1, h2, h3, h4⟩
    · simp only [Option.some.injEq, h4, if_true] at hs; subst hs
      exact ⟨h1, h2, h3, trivial⟩
    · simp [h1] at hs

theorem Passing.run {N : Nat} : ∀ {as : List Action} {s s' : State}, Passing N s → (∀ d m, .callW d m ∉ as) →
    .close ∉ as → run N as s = some s' → .handR ∉ as
  | [], _, _, _, _, _, _ => by simp
  | a :: as, s, s', h, hw, hc, hs => by
    obtain ⟨s1, h1, h2⟩ := Option.bind_eq_some_iff.1 hs
    simp only [List.mem_cons, not_or] at hw hc ⊢
    obtain ⟨h3, h4⟩ := h.step (fun d m e => (hw d m).1 e.symm) (Ne.symm hc.1) h1
    exact ⟨Ne.symm h4, h3.run (fun d m => (hw d m).2) hc.2 h2⟩

theorem Filling.run {N : Nat} : ∀ {as : List Action} {s s' : State}, Filling N s → .handR ∉ as →
    .close ∉ as → run N as s = some s' → Filling N s'
  | [], _, _, h, _, _, hs => by cases hs; exact h
  | a :: as, s, s', h, hw, hc, hs => by
    obtain ⟨s1, h1, h2⟩ := Option.bind_eq_some_iff.1 hs
    simp only [List.mem_cons, not_or] at hw hc
    exact (h.step (Ne.symm hw.1) (Ne.symm hc.1) h1).run hw.2 hc.2 h2

/-- **C27, exactly.**  A `WriteN` of a single byte wakes a reader that was waiting when it was called if and only if it
fills the buffer: one position is left free after it. -/
theorem C27_exact {N : Nat} {s s' : State} {data : List Byte} {as : List Action} (hr : Reach N Any s)
    (hc : s.closed = false) (hw : s.rpc = .waitSend) (hrun : run N (.callW data 1 :: as) s = some s')
    (h1 : ∀ d m, .callW d m ∉ as) (h2 : .close ∉ as) (hi : s'.wpc = .idle) :
    .handR ∈ as ↔ incr N (incr N s.next) = s.start := by
  obtain ⟨s1, h3, h4⟩ := Option.bind_eq_some_iff.1 hrun
  have hp := hr.pair hc
  simp only [step] at h3
  split at h3
  · rename_i hidle
    simp only [Option.some.injEq] at h3
    subst h3
    constructor
    · intro h
      refine Classical.byContradiction fun hn => ?_
      have hpass : Passing N { s with wpc := .load1, wdata := data, wn := 1, given := s.given ++ data.take 1 } :=
        ⟨hc, hw, rfl, hn⟩
      exact hpass.run h1 h2 h4 h
    · intro h
      refine Classical.byContradiction fun hn => ?_
      have hfill : Filling N { s with wpc := .load1, wdata := data, wn := 1, given := s.given ++ data.take 1 } :=
        ⟨hc, hw, rfl, h, hp.rset.2 ⟨hw, by rw [hidle.1]; rfl⟩⟩
      have := hfill.run hn h2 h4
      simp [Filling, hi] at this
  · simp at h3

/-- Both sides of `C27_exact`: in a buffer of size 2 a single byte fills the buffer and the reader is woken, in one of size 8 it
does not and the reader is not. -/
example : ∃ s s', Reach 2 Any s ∧ s.closed = false ∧ s.rpc = .waitSend ∧
    run 2 [.callW [1] 1, .w, .w, .w, .w, .w, .handR, .w, .w, .r, .r, .r, .handW, .w] s = some s' ∧ s'.wpc = .idle := by
  have e : ((run 2 [.callR [9] 1, .r, .r, .r, .r, .r] init).bind fun s =>
      (run 2 [.callW [1] 1, .w, .w, .w, .w, .w, .handR, .w, .w, .r, .r, .r, .handW, .w] s).map fun s' =>
        (s.closed, s.rpc, s'.wpc)) = some (false, .waitSend, .idle) := by decide
  obtain ⟨s, h1, h2⟩ := Option.bind_eq_some_iff.1 e
  obtain ⟨s', h3, h4⟩ := Option.map_eq_some_iff.1 h2
  simp only [Prod.mk.injEq] at h4
  exact ⟨s, s', reach_of_run h1, h4.1, h4.2.1, h3, h4.2.2⟩

example : ∃ s s', Reach 8 Any s ∧ s.closed = false ∧ s.rpc = .waitSend ∧
    run 8 [.callW [1] 1, .w, .w, .w, .w] s = some s' ∧ s'.wpc = .idle := by
  have e : ((run 8 [.callR [9] 1, .r, .r, .r, .r, .r] init).bind fun s =>
      (run 8 [.callW [1] 1, .w, .w, .w, .w] s).map fun s' => (s.closed, s.rpc, s'.wpc)) =
        some (false, .waitSend, .idle) := by decide
  obtain ⟨s, h1, h2⟩ := Option.bind_eq_some_iff.1 e
  obtain ⟨s', h3, h4⟩ := Option.map_eq_some_iff.1 h2
  simp only [Prod.mk.injEq] at h4
  exact ⟨s, s', reach_of_run h1, h4.1, h4.2.1, h3, h4.2.2⟩

/-! ## C28: who is to blame for a deadlock -/

/-- **C28.**  There is no deadlock in schedules where each goroutine that sets the flag of `Wait` has, at that moment, a
reason to: the buffer is full, respectively empty.  So in each schedule that leads to a deadlock, some goroutine sets its flag
although the other one has moved on since it looked.  Missing for the full claim: the code does not look again. -/
theorem C28_fresh_partial {N : Nat} (hN : 2 ≤ N) : C28_statement N (Fresh N) := by
  intro s h hc ⟨hw, hr, hno⟩
  have hl := h.awake hc
  obtain ⟨a, ha, hm⟩ := hl.pair.canMove (N := N) hw (hl.not_both hN) hr
  have : a ≠ .close := by
    rintro rfl
    simp at ha
  rw [hno a this] at hm
  simp at hm

/-- The condition is weaker than that of `C28_partial`. -/
theorem atomic_fresh {N : Nat} {s : State} (h : Reach N Atomic s) (hc : s.closed = false) : Reach N (Fresh N) s := by
  induction h with
  | init => exact .init
  | @step s s' a hr hok hs ih =>
    have hc0 : s.closed = false := by
      cases h0 : s.closed with
      | false => rfl
      | true => have := step_closed hs h0; simp_all
    have hl := hr.live hc0
    exact (ih hc0).step a ⟨fun _ => hl.wcas, fun _ => hl.rcas⟩ hs

instance (N : Nat) (s : State) (a : Action) : Decidable (Fresh N s a) := by
  unfold Fresh
  infer_instance

/-- Non-trivial instance of `C28_fresh_partial`: the reader finds the buffer empty, the writer begins to write before the reader
waits. -/
example : ∃ s, Reach 8 (Fresh 8) s ∧ s.closed = false ∧ s.rpc = .waitSend ∧ s.wpc = .frelRecv := by
  have h : ((run 8 [.callR [9] 1, .r, .r, .r, .r, .callW [1, 2] 2, .w, .w, .w, .w, .r, .w, .w] init).map
      fun s => (s.closed, s.rpc, s.wpc)) = some (false, .waitSend, .frelRecv) := by decide
  obtain ⟨s, h1, h2⟩ := Option.map_eq_some_iff.1 h
  simp only [Prod.mk.injEq] at h2
  exact ⟨s, reach_trace _ .init (by decide) h1, h2⟩

end Kafka.Props
