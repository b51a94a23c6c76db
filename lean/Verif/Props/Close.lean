import Verif.Props.Progress
import Verif.Ring.Hist
/-!
Properties C53, C54, C54: `Close`.
-/
set_option linter.unusedSimpArgs false

namespace Kafka.Props

open Conn

/-! ## C53: Close ends the connection -/

/-- When `Close` has returned, both goroutines have ended and the network connection is closed, and it stays so:
nothing more is written to it or read from it, and no call returns a reply that it had not been given. -/
theorem C53_ended {P : Params} {s : Conn.State} (h : Conn.Reach P Conn.Any s) {k : Nat} (hk : s.closers k = .done) :
    s.mpc = .exited ∧ s.lpc = .exited ∧ s.rawClosed = true ∧
    ∀ as s', Conn.run P as s = some s' → s'.wire = s.wire ∧ s'.received = s.received ∧ s'.lost = s.lost ∧
      s'.mpc = .exited ∧ s'.lpc = .exited ∧
      ∀ c d, (s'.calls c).pc = .done (.reply d) → (s.calls c).pc = .done (.reply d) ∨ (s.calls c).chan = some d := by
  have hcl := h.closed
  have hm := hcl.read k (.inr hk)
  have hl := hcl.done k hk
  have hr := hcl.raw k (by simp [hk]) (by simp [hk]) (by simp [hk]) (by simp [hk])
  refine ⟨hm, hl, hr, fun as s' hrun => ?_⟩
  have := run_inv (P := P) (ok := fun _ => True) (I := fun x => x.wire = s.wire ∧ x.received = s.received ∧ x.lost = s.lost ∧
      x.mpc = .exited ∧ x.lpc = .exited ∧ x.rawClosed = true ∧ (∀ c d, (x.calls c).chan = some d → (s.calls c).chan = some d) ∧
      ∀ c d, (x.calls c).pc = .done (.reply d) → (s.calls c).pc = .done (.reply d) ∨ (s.calls c).chan = some d)
    (fun x x' a hi _ ht => ?_) as (fun _ _ => trivial) ⟨rfl, rfl, rfl, hm, hl, hr, fun _ _ => id, fun _ _ h => .inl h⟩ hrun
  · exact ⟨this.1, this.2.1, this.2.2.1, this.2.2.2.1, this.2.2.2.2.1, this.2.2.2.2.2.2.2⟩
  · obtain ⟨h1, h2, h3, h4, h5, h6, h7, h8⟩ := hi
    cases ht
    case writeErr c k e rest hp hne hk hrc =>
      cases hrc h6
      refine ⟨by simpa [State.set] using h1, h2, h3, h4, h5, h6, fun j d => ?_, fun j d => ?_⟩ <;>
        simp only [State.set] <;> grind
    all_goals first
      | (refine ⟨h1, h2, h3, h4, h5, h6, fun j d => ?_, fun j d => ?_⟩ <;> (try simp only [State.set]) <;> grind)
      | simp_all

/-- Non-trivial instance: `Close` has returned while a call was waiting. -/
example : ∃ s, Conn.Reach small Conn.Any s ∧ s.closers 0 = .done ∧ (s.calls 0).pc = .recv := by
  have h : (Conn.run small closeWhileWaiting (Conn.init small)).isSome = true := rfl
  obtain ⟨s, hs⟩ := Option.isSome_iff_exists.1 h
  refine ⟨s, connReach_of_run hs, ?_⟩
  cases hs
  exact ⟨rfl, rfl⟩

/-- A call of `Close` can go on to return, in every state, unless a goroutine panics. -/
theorem C53_returns {P : Params} (hP : 4 ≤ P.buf) {s : Conn.State} (h : Conn.Reach P Conn.Any s) (hc : s.crashed = false)
    (k : Nat) : ∃ s', Leads P s s' ∧ (s'.crashed = true ∨ s'.closers k = .done) :=
  close_returns hP h hc k

/-- The number of operations of `messageLoop` in a schedule. -/
def messageSteps (as : List Act) : Nat := (as.filter (·.ofMessage)).length

/-- The number of operations of `readLoop` in a schedule. -/
def readSteps (as : List Act) : Nat := (as.filter (·.ofRead)).length

theorem rawClosed_inv {P : Params} {ok : Conn.State → Act → Prop} {s : Conn.State} (h : Conn.Reach P ok s) :
    s.rawClosed = true → s.cancelled = true := by
  refine h.inv (I := fun s => s.rawClosed = true → s.cancelled = true) (by simp [Conn.init]) ?_
  intro s s' a hr hi hok ht
  clear hok
  cases ht
  case rawClose k hk => intro _; exact hr.closed.cancel k (by simp [hk]) (by simp [hk])
  case cancel => intro _; rfl
  all_goals exact hi

theorem wLoop_wn (r : Ring.State) : (Ring.wLoop r).wn = r.wn := by unfold Ring.wLoop; split <;> rfl

theorem rLoop_wn (r : Ring.State) : (Ring.rLoop r).wn = r.wn := by
  unfold Ring.rLoop; split
  · split <;> rfl
  · rfl

theorem ring_wn {N : Nat} {a : Ring.Action} {r r' : Ring.State} (ha : a.isCallW = false)
    (h : Ring.step N a r = some r') : r'.wn = r.wn := by
  cases a <;> simp only [Ring.step, Ring.wStep, Ring.rStep] at h
  case callW => cases ha
  all_goals
    (repeat' split at h) <;> simp only [Option.some.injEq, reduceCtorEq] at h <;> subst h <;>
      simp [Ring.wWaited, Ring.wReleased, Ring.wReturn, Ring.rWaited, Ring.rReturn, wLoop_wn, rLoop_wn]

theorem wn_inv {P : Params} {ok : Conn.State → Act → Prop} {s : Conn.State} (h : Conn.Reach P ok s) :
    s.ring.wn ≤ P.buf := by
  refine h.inv (I := fun s => s.ring.wn ≤ P.buf) (by simp [Conn.init, Ring.init]) ?_
  intro s s' a hr hi hok ht
  clear hok
  cases ht
  case ring a r ha hst => rw [← ring_wn (inRing_calls ha).2 hst] at hi; exact hi
  case head r _ _ hst => rw [← ring_wn rfl hst] at hi; exact hi
  case body r _ _ _ hst => rw [← ring_wn rfl hst] at hi; exact hi
  case rbClose r _ hst => rw [← ring_wn rfl hst] at hi; exact hi
  case read data r _ _ hl hst =>
    simp only [Ring.step] at hst
    split at hst
    · simp only [Option.some.injEq] at hst; subst hst; exact hl
    · cases hst
  all_goals exact hi

theorem crashed_run {P : Params} {as : List Act} {s s' : Conn.State} (h : Conn.run P as s = some s')
    (hc : s'.crashed = false) : s.crashed = false := by
  cases as with
  | nil => cases h; exact hc
  | cons a as =>
    cases hs : s.crashed with
    | false => rfl
    | true => simp [Conn.run, Conn.step, hs] at h

theorem run_cost {P : Params} (hP : 4 ≤ P.buf) : ∀ (as : List Act) {s s' : Conn.State}, Conn.Reach P Conn.Any s →
    s.rawClosed = true → Conn.run P as s = some s' → s'.crashed = false →
    messageSteps as + mCost P s' ≤ mCost P s ∧ readSteps as + lCost s' ≤ lCost s
  | [], s, s', _, _, hrun, _ => by cases hrun; simp [messageSteps, readSteps]
  | a :: as, s, s', h, hr, hrun, hc => by
    simp only [Conn.run] at hrun
    obtain ⟨s1, h1, h2⟩ := Option.bind_eq_some_iff.1 hrun
    have ht := step_trans h1
    have hr1 : s1.rawClosed = true := by
      clear h1 h2 hrun
      cases ht <;> first | exact hr | rfl
    have m := mCost_step h.frames (rawClosed_inv h hr) (fun g => ((h.stream hP).out g).1) ht (crashed_run h2 hc)
    have l := lCost_step hr h.writer ht
    have ih := run_cost hP as (h.step a trivial h1) hr1 h2 hc
    simp only [messageSteps, readSteps, List.filter_cons] at ih ⊢
    constructor
    · cases ha : a.ofMessage <;> simp [ha] at m ⊢ <;> omega
    · cases ha : a.ofRead <;> simp [ha] at l ⊢ <;> omega

/-- Both goroutines end soon: from the moment the network connection is closed, whatever else happens and in whatever
order, `messageLoop` makes at most `7 * P.buf + 59` more steps and `readLoop` at most `7 * P.buf + 12`. -/
theorem C53_bounded {P : Params} (hP : 4 ≤ P.buf) {s : Conn.State} (h : Conn.Reach P Conn.Any s) (hr : s.rawClosed = true)
    {as : List Act} {s' : Conn.State} (hrun : Conn.run P as s = some s') (hc : s'.crashed = false) :
    messageSteps as ≤ 7 * P.buf + 59 ∧ readSteps as ≤ 7 * P.buf + 12 := by
  obtain ⟨h1, h2⟩ := run_cost hP as h hr hrun hc
  have hst := h.stream hP
  have rc : Ring.rCost s.ring ≤ 7 * s.ring.rn + 10 := by
    unfold Ring.rCost
    cases s.ring.rpc <;> simp only [Ring.RPc.cost] <;> omega
  have wc : Ring.wCost s.ring ≤ 7 * s.ring.wn + 10 := by
    unfold Ring.wCost
    cases s.ring.wpc <;> simp only [Ring.WPc.cost] <;> omega
  have hw := wn_inv h
  constructor
  · have : mCost P s ≤ 7 * P.buf + 59 := by
      unfold mCost
      cases hm : s.mpc with
      | inHead =>
        obtain ⟨_, _, e, _⟩ := hst.head hm
        simp only
        omega
      | inBody size =>
        obtain ⟨_, _, _, _, e, _⟩ := hst.body size hm
        have := h.frames.body size hm
        have : s.ring.rdst.length ≤ P.buf + 1 := by rw [this]; split <;> omega
        simp only
        omega
      | _ => simp only; omega
    omega
  · have : lCost s ≤ 7 * P.buf + 12 := by
      unfold lCost
      cases hm : s.lpc <;> simp only <;> omega
    omega

/-- Non-trivial instance: `Close` has closed the connection while `messageLoop` and `readLoop` are busy. -/
example : ∃ s, Conn.Reach small Conn.Any s ∧ s.rawClosed = true ∧ s.crashed = false ∧ s.lpc = .inWrite ∧ s.ring.rpc = .waitSend := by
  have h : ((Conn.run small ([.message, .ring .r, .ring .r, .ring .r, .ring .r, .ring .r, .read [1, 2, 3], .ring .w] ++
      [.close 0, .close 0, .close 0, .close 0]) (Conn.init small)).map fun s =>
      (s.rawClosed, s.crashed, s.lpc, s.ring.rpc matches .waitSend)) = some (true, false, .inWrite, true) := by decide +kernel
  obtain ⟨s, h1, h2⟩ := Option.map_eq_some_iff.1 h
  simp only [Prod.mk.injEq] at h2
  refine ⟨s, connReach_of_run h1, h2.1, h2.2.1, h2.2.2.1, ?_⟩
  have := h2.2.2.2
  split at this <;> simp_all

/-! ## C54: Only complete replies are returned -/

/-- The full claim: a call that returns a reply returns a whole frame of the stream of bytes the peer has sent. -/
def C54_statement (P : Params) (ok : Conn.State → Act → Prop) : Prop :=
  ∀ s, Conn.Reach P ok s → ∀ c d, (s.calls c).pc = .done (.reply d) →
    ∃ p ∈ splitStream s.received, Wire.int32 (s.calls c).id <+: p ∧ Given P.buf p d

/-- It holds in all schedules in which the goroutines woken in the ring buffer do not run ahead (see C25).  Missing for
the full claim: schedules in which they do, and those in which `Close` wakes `messageLoop`. -/
theorem C54_partial {P : Params} (hN : 2 ≤ P.ring) (hP : 4 ≤ P.buf) : C54_statement P (PacedConn P) := by
  intro s h c d hd
  obtain ⟨p, h1, h2, h3, h4, h5, h6⟩ := h.frames.done c d hd
  exact ⟨p, (C37_partial hN hP s h).subset h1, h2, h3, h4, h5, h6⟩

/-- Non-trivial instance: an unknown reply is dropped, then the call returns its own. -/
example : ∃ s d, Conn.Reach small (PacedConn small) s ∧ (s.calls 0).pc = .done (.reply d) ∧ s.received.length = 16 := by
  let sch := callDo 0 ++ deliver [0, 0, 0, 4, 0, 0, 0, 9] ++ [.message] ++ List.replicate 8 (.ring .r) ++ [.message] ++
    List.replicate 8 (.ring .r) ++ List.replicate 5 .message ++ deliver [0, 0, 0, 4, 0, 0, 0, 1] ++ [.message] ++
    List.replicate 8 (.ring .r) ++ [.message] ++ List.replicate 8 (.ring .r) ++ List.replicate 7 .message ++ [.call 0]
  have h : ((Conn.run small sch (Conn.init small)).map fun s =>
      ((s.calls 0).pc matches .done (.reply _), s.received.length)) = some (true, 16) := by decide +kernel
  have ht : ∀ x ∈ connTrace small sch (Conn.init small), PacedConn small x.1 x.2 := by decide +kernel
  obtain ⟨s, h1, h2⟩ := Option.map_eq_some_iff.1 h
  simp only [Prod.mk.injEq] at h2
  have h3 := h2.1
  split at h3
  · exact ⟨s, _, connReach_trace sch .init ht h1, by assumption, h2.2⟩
  · cases h3

/-- The goroutines woken in the ring buffer do not run ahead, but `Close` may wake them. -/
def PacedOpen (P : Params) (s : Conn.State) (a : Act) : Prop := s.ring.closed = true ∨ PacedConn P s a

/-- The schedule `as` is possible from `s`, all its steps satisfy `ok`, and it leads to a state with `p`. -/
def RunsTo (P : Params) (ok : Conn.State → Act → Prop) (p : Conn.State → Prop) : List Act → Conn.State → Prop
  | [], s => p s
  | a :: as, s => ok s a ∧ ∃ s1, Conn.step P a s = some s1 ∧ RunsTo P ok p as s1

theorem RunsTo.reach {P : Params} {ok : Conn.State → Act → Prop} {p : Conn.State → Prop} : ∀ {as : List Act} {s : Conn.State},
    Conn.Reach P ok s → RunsTo P ok p as s → ∃ s', Conn.Reach P ok s' ∧ p s'
  | [], _, hr, h => ⟨_, hr, h⟩
  | _ :: _, _, hr, ⟨h1, _, h2, h3⟩ => RunsTo.reach (hr.step _ h1 h2) h3

/-- A request is outstanding; the peer announces a reply of eight bytes and sends four of them, its correlation id.
`messageLoop` waits for the rest when `Close` is called. -/
def cutShort : List Act :=
  callDo 0 ++ [.read [0, 0, 0, 8, 0, 0, 0, 1]] ++ List.replicate 12 (.ring .w) ++ [.readNext, .message] ++
  List.replicate 8 (.ring .r) ++ [.message] ++ List.replicate 10 (.ring .r) ++ [.close 0, .close 0, .close 0] ++
  List.replicate 7 (.ring .r) ++ List.replicate 7 .message ++ [.call 0]

example : (Conn.run small cutShort (Conn.init small)).isSome = true := by decide +kernel

/-- The claim is false at every size, even if nobody runs ahead: the call returns a reply of eight bytes, of which the
peer has sent four. -/
theorem C54_fails {P : Params} (hN : 16 ≤ P.ring) (hP : 8 ≤ P.buf) : ¬C54_statement P (PacedOpen P) := by
  obtain ⟨N, B⟩ := P
  obtain ⟨M, rfl⟩ := Nat.exists_eq_add_of_le' hN
  obtain ⟨B, rfl⟩ := Nat.exists_eq_add_of_le' hP
  have ew : Wire.int32 1 = [0, 0, 0, 1] := by rw [wire_int32]; rfl
  have h : ∃ s, Conn.Reach ⟨M + 16, B + 8⟩ (PacedOpen ⟨M + 16, B + 8⟩) s ∧ s.received = [0, 0, 0, 8, 0, 0, 0, 1] ∧
      ∃ d, (s.calls 0).pc = .done (.reply d) := by
    refine RunsTo.reach (as := cutShort) .init ?_
    unfold cutShort callDo Conn.init Ring.init sampleJob
    simp only [List.replicate, List.cons_append, List.nil_append]
    iterate 11 refine ⟨.inr trivial, _, (by simp [Conn.step, callStep, State.set, upd, ew]; rfl), ?_⟩
    iterate 14 refine ⟨.inr (by simp [PacedConn, Ring.Paced]), _, (by
      simp [Conn.step, inRing, Ring.step, Ring.wStep, Ring.wLoop, Ring.wReturn, Ring.incr]; rfl), ?_⟩
    iterate 20 refine ⟨.inr (by simp [PacedConn, Ring.Paced]), _, (by
      simp [Conn.step, messageStep, readN, inRing, Ring.step, Ring.rStep, Ring.rLoop, Ring.rReturn, Ring.incr, List.replicate_succ]; rfl), ?_⟩
    iterate 3 refine ⟨.inr trivial, _, (by simp [Conn.step, closeStep, Ring.step]; rfl), ?_⟩
    iterate 7 refine ⟨.inl rfl, _, (by
      simp [Conn.step, inRing, Ring.step, Ring.rStep, Ring.rLoop, Ring.rWaited, Ring.rReturn, Ring.incr]; rfl), ?_⟩
    refine ⟨.inl rfl, _, (by simp [Conn.step, messageStep]; rfl), ?_⟩
    iterate 6 refine ⟨.inl rfl, _, (by simp [Conn.step, messageStep, upd, State.set]; rfl), ?_⟩
    refine ⟨.inl rfl, _, (by simp [Conn.step, callStep, upd, State.set]; rfl), ?_⟩
    exact ⟨rfl, _, rfl⟩
  intro h0
  obtain ⟨s, h1, h2, d, h3⟩ := h
  obtain ⟨p, h4, _⟩ := h0 s h1 0 d h3
  have h5 : splitStream [0, 0, 0, 8, 0, 0, 0, 1] = [] := by rw [splitStream]; rfl
  rw [h2, h5] at h4
  cases h4

/-! ## C55: Closing an idle connection -/

/-- The full claim: when everything received has been dealt with and nobody is doing anything, whatever happens without
the peer sending more (in particular `Close`) does not crash the program. -/
def C55_statement (P : Params) (at' : Conn.State → Prop) : Prop :=
  ∀ s, Conn.Reach P Conn.Any s → Conn.Calm P s → at' s →
    ∀ as s', Conn.run P as s = some s' → s'.received = s.received → s'.crashed = false

theorem empties {P : Params} (hN : 6 ≤ P.ring) (hP : 4 ≤ P.buf) : ∀ (n : Nat) {s : Conn.State}, Conn.Reach P Conn.Any s →
    Conn.Calm P s → (∀ c d, (s.calls c).job.panics d = false) →
    ∃ s', Leads P s s' ∧ Conn.Calm P s' ∧ s'.received = s.received ++ List.replicate (4 * n) 0 ∧ s'.closers = s.closers
  | 0, s, _, h, _ => ⟨s, .refl _, h, by simp, rfl⟩
  | n + 1, s, hr, h, hok => by
    obtain ⟨s1, l1, h1, h2, h3, h4⟩ := h.frame (by omega) hP hr (v := 0) (f := []) rfl (by simp) (by simpa using hN) hok
    obtain ⟨s2, l2, h5, h6, h7⟩ := empties hN hP n (l1.reach hr) h1 (fun c d => by rw [h4]; exact hok c d)
    have e : Wire.int32 0 = List.replicate 4 0 := by rw [wire_int32]; rfl
    refine ⟨s2, l1.trans l2, h5, ?_, h7.trans h3⟩
    rw [h6, h2, List.append_nil, e, List.append_assoc, List.replicate_append_replicate]
    congr 2
    omega

/-- A connection on which a little more has been received than the ring buffer holds. -/
theorem wrapped {P : Params} (hN : 16 ≤ P.ring) (hP : 8 ≤ P.buf) : ∃ s, Conn.Reach P Conn.Any s ∧ Conn.Calm P s ∧
    s.received.length = P.ring + 4 ∧ (∀ i, i < 4 → s.received.getD (4 + i) 0 = 0x7F) ∧ s.closers 0 = .absent := by
  have hv : (Int32.ofInt (4 + P.ring % 4 : Nat)).toInt = (4 + P.ring % 4 : Nat) := by
    rw [Int32.toInt_ofInt]
    exact Int.bmod_eq_of_le (by simp only [Int32.size]; omega) (by simp only [Int32.size]; omega)
  generalize Int32.ofInt (4 + P.ring % 4 : Nat) = v at hv
  have hlv : (Wire.int32 v).length = 4 := by rw [wire_int32]; rfl
  obtain ⟨s1, l1, h1, h2, h3, h4⟩ := (Conn.Calm.init (P := P) (by omega)).frame (by omega) (by omega) .init (v := v)
    (f := List.replicate (4 + P.ring % 4) 0x7F) (by rw [hv, List.length_replicate]; omega) (by rw [List.length_replicate]; omega)
    (by rw [List.length_replicate]; omega) (fun _ _ => rfl)
  obtain ⟨s2, l2, h5, h6, h7⟩ := empties (by omega) (by omega) (P.ring / 4 - 1) (l1.reach .init) h1
    (fun c d => by rw [h4]; rfl)
  refine ⟨s2, l2.reach (l1.reach .init), h5, ?_, fun i hi => ?_, by rw [h7, h3]; rfl⟩
  · rw [h6, h2]
    simp only [Conn.init, List.nil_append, List.length_append, List.length_replicate, hlv]
    omega
  · rw [h6, h2]
    simp only [Conn.init, List.nil_append, List.append_assoc, List.getD_eq_getElem?_getD]
    rw [List.getElem?_append_right (by omega), hlv, List.getElem?_append_left (by simp; omega),
      List.getElem?_replicate, if_pos (by omega)]
    rfl

theorem oversize_crash {P : Params} : ∀ (n : Nat) {s : Conn.State}, Ring.rCost s.ring ≤ n → s.crashed = false →
    s.ring.closed = true → Filling s → ∃ s', Leads P s s' ∧ s'.received = s.received ∧ s'.crashed = true
  | n, s, hn, hc, hcl, hp => by
    cases hf : full s with
    | true => exact ⟨_, .step (.ring .r) (step_full hc hf) (.refl _), rfl, rfl⟩
    | false =>
      obtain ⟨r, hr⟩ := Option.isSome_iff_exists.1 (Ring.rStep_enabled (N := P.ring) hcl hp.idle)
      have h1 := Ring.rStep_cost hr
      match n with
      | 0 => omega
      | n + 1 =>
        obtain ⟨s', h2, h3⟩ := oversize_crash n (s := { s with ring := r }) (by show Ring.rCost r ≤ n; omega) hc
          (by rw [← hcl]; exact (Ring.rStep_wCost hr).2) (hp.next hf hr)
        exact ⟨s', .step (.ring .r) (step_ringR hc hf hr) h2, h3⟩

theorem wLoop_closed' (r : Ring.State) : (Ring.wLoop r).closed = r.closed := by unfold Ring.wLoop; split <;> rfl

theorem rLoop_closed' (r : Ring.State) : (Ring.rLoop r).closed = r.closed := by
  unfold Ring.rLoop; split
  · split <;> rfl
  · rfl

theorem ring_closed {N : Nat} {a : Ring.Action} {r r' : Ring.State} (ha : a ≠ .close)
    (h : Ring.step N a r = some r') : r'.closed = r.closed := by
  cases a <;> simp only [Ring.step, Ring.wStep, Ring.rStep] at h
  case close => cases ha rfl
  all_goals
    (repeat' split at h) <;> simp only [Option.some.injEq, reduceCtorEq] at h <;> subst h <;>
      simp [Ring.wWaited, Ring.wReleased, Ring.wReturn, Ring.rWaited, Ring.rReturn, wLoop_closed', rLoop_closed']

theorem ringClosed_inv {P : Params} {ok : Conn.State → Act → Prop} {s : Conn.State} (h : Conn.Reach P ok s) :
    s.ring.closed = true → s.cancelled = true := by
  refine h.inv (I := fun s => s.ring.closed = true → s.cancelled = true) (by simp [Conn.init, Ring.init]) ?_
  intro s s' a hr hi hok ht
  clear hok
  cases ht
  case rbClose k _ hk _ => intro _; exact hr.closed.cancel k (by simp [hk]) (by simp [hk])
  case cancel => intro _; rfl
  case ring a r ha hst => rw [← ring_closed (by rintro rfl; cases ha) hst] at hi; exact hi
  case head r _ _ hst => rw [← ring_closed (by simp) hst] at hi; exact hi
  case body r _ _ _ hst => rw [← ring_closed (by simp) hst] at hi; exact hi
  case read data r _ _ hl hst => rw [← ring_closed (by simp) hst] at hi; exact hi
  all_goals exact hi

/-- Nothing is being put into the ring buffer. -/
def NoInput (r : Ring.State) : Prop :=
  r.wpc = .idle ∨ r.wn = 0 ∧ (r.wpc = .load1 ∨ r.wpc = .load2 ∨ r.wpc = .fstore)

/-- What the ring buffer is like while nothing arrives; `n` bytes have been received, `c` says that the connection's context
is cancelled. -/
structure Still (n : Nat) (c : Bool) (r : Ring.State) : Prop where
  put : r.put.length = n
  pub : r.pub = n
  input : NoInput r
  rset : r.rset = true → r.rpc = .waitSend ∨ c = true

/-- `messageLoop` reads the size of a frame: it waits, or reads zeros because of `Close`. -/
def DryHead (n : Nat) (c : Bool) (r : Ring.State) : Prop :=
  r.rn = 4 ∧ match r.rpc with
    | .load1 | .load2 => r.got.length = n
    | .store | .reload | .waitCas | .waitSend => r.got.length = n ∧ r.ri = 0 ∧ r.rread = 0 ∧ r.rnext = n
    | .get => c = true ∧ r.ri < 4 ∧ r.got.length = n + r.ri ∧ r.rdst.take r.ri = List.replicate r.ri 0 ∧ r.rnext = n
    | .fstore | .frelCas | .frelRecv | .idle => c = true ∧ r.rdst.take 4 = List.replicate 4 0
    | _ => False

/-- `messageLoop` reads a body of no bytes. -/
def DryBody (r : Ring.State) : Prop :=
  r.rn = 0 ∧ (r.rpc = .load1 ∨ r.rpc = .load2 ∨ r.rpc = .fstore ∧ r.rread = 0 ∨ r.rpc = .idle)

theorem Still.w {N n : Nat} {c : Bool} {r r' : Ring.State} (h : Still n c r)
    (hs : Ring.step N .w r = some r') : Still n c r' ∧ (DryHead n c r → DryHead n c r') ∧ (DryBody r → DryBody r') := by
  obtain ⟨h1, h2, h3, h4⟩ := h
  rcases h3 with h3 | ⟨h3, h5 | h5 | h5⟩
  · simp [Ring.step, Ring.wStep, h3] at hs
  · simp only [Ring.step, Ring.wStep, h5, Option.some.injEq] at hs
    subst hs
    exact ⟨⟨h1, h2, .inr ⟨h3, .inr (.inl rfl)⟩, h4⟩, id, id⟩
  · simp only [Ring.step, Ring.wStep, h5, Option.some.injEq, Ring.wLoop, h3, Nat.lt_irrefl, if_false] at hs
    subst hs
    exact ⟨⟨h1, h2, .inr ⟨rfl, .inr (.inr rfl)⟩, h4⟩, id, id⟩
  · simp only [Ring.step, Ring.wStep, h5, Option.some.injEq, h3, Ring.wReturn] at hs
    rw [if_neg (by omega)] at hs
    subst hs
    exact ⟨⟨h1, h1, .inl rfl, h4⟩, id, id⟩

theorem Still.hand {N n : Nat} {c : Bool} {r : Ring.State} (h : Still n c r) :
    Ring.step N .handR r = none ∧ Ring.step N .handW r = none := by
  rcases h.input with h3 | ⟨_, h3 | h3 | h3⟩ <;> simp [Ring.step, h3]

theorem Still.rHead {N n : Nat} {c : Bool} {r r' : Ring.State} (hn : n + 4 ≤ N) (hp : Ring.Pos N r) (hh : Ring.Hist N r)
    (hl : r.rn ≤ r.rdst.length) (hc : r.closed = true → c = true) (h : Still n c r) (hd : DryHead n c r)
    (hs : Ring.step N .r r = some r') : Still n c r' ∧ DryHead n c r' := by
  obtain ⟨h1, h2, h3, h4⟩ := h
  obtain ⟨h5, h6⟩ := hd
  have hnext : r.next = n := by rw [hp.next, h2, Nat.mod_eq_of_lt (by omega)]
  have hst : r.rpc.loaded = true → r.got.length < N → r.rpos = r.got.length := fun g g' => by
    rw [hp.rpos g, Nat.mod_eq_of_lt g']
  cases hpc : r.rpc <;> simp only [hpc, Ring.RPc.loaded, reduceCtorEq, false_or] at h4 h6 hst <;>
    simp only [Ring.step, Ring.rStep, hpc] at hs
  case idle => cases hs
  case load1 =>
    cases hs
    exact ⟨⟨h1, h2, h3, fun g => .inr (h4 g)⟩, h5, h6⟩
  case load2 =>
    cases hs
    have e : r.rpos = r.next := by rw [hnext, hst (by simp) (by omega), h6]
    simp only [Ring.rLoop, h5, e, if_true, Nat.zero_lt_succ]
    exact ⟨⟨h1, h2, h3, fun g => .inr (h4 g)⟩, rfl, h6, rfl, rfl, hnext⟩
  case store =>
    obtain ⟨g1, g2, g3, g4⟩ := h6
    rw [if_neg (by omega)] at hs
    cases hs
    exact ⟨⟨h1, h2, h3, fun g => .inr (h4 g)⟩, h5, g1, g2, g3, g4⟩
  case reload =>
    obtain ⟨g1, g2, g3, g4⟩ := h6
    have e : r.rpos = r.next := by rw [hnext, hst (by simp) (by omega), g1]
    rw [if_pos e] at hs
    cases hs
    exact ⟨⟨h1, h2, h3, fun g => .inr (h4 g)⟩, h5, g1, g2, g3, hnext⟩
  case waitCas =>
    obtain ⟨g1, g2, g3, g4⟩ := h6
    split at hs
    · rename_i g
      cases hs
      exact ⟨⟨h1, h2, h3, fun g => .inr (h4 g)⟩, h5, h4 g, by simp [Ring.rWaited, g2], by simpa [Ring.rWaited, g2] using g1,
        by simp [Ring.rWaited, g2], g4⟩
    · cases hs
      exact ⟨⟨h1, h2, h3, fun _ => .inl rfl⟩, h5, g1, g2, g3, g4⟩
  case waitSend =>
    obtain ⟨g1, g2, g3, g4⟩ := h6
    split at hs
    · rename_i g
      cases hs
      exact ⟨⟨h1, h2, h3, fun _ => .inr (hc g)⟩, h5, hc g, by simp [Ring.rWaited, g2], by simpa [Ring.rWaited, g2] using g1,
        by simp [Ring.rWaited, g2], g4⟩
    · cases hs
  case get =>
    obtain ⟨g1, g2, g3, g4, g5⟩ := h6
    cases hs
    have e1 : r.rpos = n + r.ri := by rw [hst (by simp) (by omega), g3]
    have e2 : r.mem r.rpos = 0 := hh.fresh _ (by omega) (by omega)
    have e3 : (r.rdst.set r.ri 0).take (r.ri + 1) = List.replicate (r.ri + 1) 0 := by
      rw [List.take_add_one, List.take_set_of_le (Nat.le_refl _), g4, List.getElem?_set_self (by omega), List.replicate_succ']
      rfl
    simp only [e2, Ring.rLoop, h5]
    split
    · rename_i g
      have e4 : Ring.incr N r.rpos = n + r.ri + 1 := by rw [e1, Ring.incr, if_neg (by omega)]
      rw [if_neg (by rw [e4, g5]; omega)]
      exact ⟨⟨h1, h2, h3, fun _ => .inr g1⟩, rfl, g1, g, by simp [g3]; omega, e3, g5⟩
    · have e5 : r.ri = 3 := by omega
      rw [e5] at e3
      exact ⟨⟨h1, h2, h3, fun _ => .inr g1⟩, rfl, g1, by rw [e5]; exact e3⟩
  case fstore =>
    cases hs
    split
    · exact ⟨⟨h1, h2, h3, fun _ => .inr h6.1⟩, h5, h6⟩
    · exact ⟨⟨h1, h2, h3, fun _ => .inr h6.1⟩, h5, h6⟩
  case frelCas =>
    split at hs <;> cases hs
    · exact ⟨⟨h1, h2, h3, fun _ => .inr h6.1⟩, h5, h6⟩
    · exact ⟨⟨h1, h2, h3, fun _ => .inr h6.1⟩, h5, h6⟩
  case frelRecv =>
    split at hs <;> cases hs
    exact ⟨⟨h1, h2, h3, fun _ => .inr h6.1⟩, h5, h6⟩

theorem Still.rBody {N n : Nat} {r r' : Ring.State} (h : Still n true r) (hd : DryBody r)
    (hs : Ring.step N .r r = some r') : Still n true r' ∧ DryBody r' := by
  obtain ⟨h1, h2, h3, h4⟩ := h
  obtain ⟨h5, h6 | h6 | ⟨h6, h7⟩ | h6⟩ := hd <;> simp only [Ring.step, Ring.rStep, h6] at hs
  · cases hs
    exact ⟨⟨h1, h2, h3, fun _ => .inr rfl⟩, h5, .inr (.inl rfl)⟩
  · cases hs
    simp only [Ring.rLoop, h5, Nat.lt_irrefl, if_false]
    exact ⟨⟨h1, h2, h3, fun _ => .inr rfl⟩, rfl, .inr (.inr (.inl ⟨rfl, rfl⟩))⟩
  · rw [h7] at hs
    cases hs
    exact ⟨⟨h1, h2, h3, fun _ => .inr rfl⟩, h5, .inr (.inr (.inr rfl))⟩
  · cases hs

/-- `messageLoop` has nothing to read, or reads zeros because of `Close`. -/
structure Dry (n : Nat) (s : Conn.State) : Prop where
  crashed : s.crashed = false
  ring : Still n s.cancelled s.ring
  top : s.mpc = .top → s.ring.rpc = .idle ∧ (s.cancelled = true ∨ s.ring.got.length = n)
  head : s.mpc = .inHead → DryHead n s.cancelled s.ring
  body : ∀ size, s.mpc = .inBody size → size = 0 ∧ s.cancelled = true ∧ DryBody s.ring
  exited : s.mpc = .exited → s.ring.rpc = .idle
  mpc : s.mpc = .top ∨ s.mpc = .inHead ∨ (∃ size, s.mpc = .inBody size) ∨ s.mpc = .exited

theorem Still.mono {n : Nat} {c : Bool} {r : Ring.State} (h : Still n c r) : Still n true r :=
  ⟨h.put, h.pub, h.input, fun _ => .inr rfl⟩

theorem DryHead.mono {n : Nat} {c : Bool} {r : Ring.State} (h : DryHead n c r) : DryHead n true r := by
  obtain ⟨h1, h2⟩ := h
  refine ⟨h1, ?_⟩
  cases hpc : r.rpc <;> simp only [hpc] at h2 ⊢ <;> first | exact h2 | exact ⟨trivial, h2.2⟩

theorem headSize_zero {buf : List Byte} (h : buf.take 4 = List.replicate 4 0) : headSize buf = some 0 := by
  obtain ⟨v, h1, h2⟩ := headSize_eq (buf := buf) (by
    have := congrArg List.length h
    simp only [List.length_take, List.length_replicate] at this
    omega)
  rw [wire_int32, h] at h1
  have h3 := beUint32_be32 v.toBitVec []
  rw [← h1] at h3
  have h4 : v = 0 := Int32.toBitVec_inj.1 (Option.some.inj h3).symm
  rw [h2, h4]
  rfl

theorem Dry.trans {P : Params} (hP : 4 ≤ P.buf) {n : Nat} (hn : n + 4 ≤ P.ring) {s s' : Conn.State} {a : Act}
    (hr : Conn.Reach P Conn.Any s) (h : Dry n s) (ht : Trans P s a s') (hrec : s'.received.length = s.received.length) :
    Dry n s' := by
  have hring : Ring.Reach P.ring Ring.Any s.ring := hr.ring (fun _ _ _ => trivial) (fun _ _ _ => trivial)
  have hpos := hring.pos (by omega)
  have hhist := hring.hist (by omega)
  have hcalls := hring.calls
  have hcl := ringClosed_inv hr
  obtain ⟨h1, h2, h3, h4, h5, h6, h7⟩ := h
  have no : ∀ {m : MPc}, s.mpc = m → (m = .top ∨ m = .inHead ∨ (∃ size, m = .inBody size) ∨ m = .exited) := fun e => e ▸ h7
  cases ht
  case stop hm hc => exact ⟨h1, h2, by simp, by simp, by simp, fun _ => (h3 hm).1, by simp⟩
  case head r hm hc hst =>
    obtain ⟨g1, g2, rfl⟩ := ring_callR hst
    have g3 := (h3 hm).2.resolve_left (by rw [hc]; simp)
    have hb := hr.frames.buf
    refine ⟨h1, ⟨h2.put, h2.pub, h2.input, fun g => ?_⟩, by simp, fun _ => ⟨?_, g3⟩, by simp, by simp, by simp⟩
    · have := h2.rset g
      rw [g1, hc] at this
      simp at this
    · show min 4 s.buf.length = 4
      omega
  case headCrash hm hi hs =>
    have g := (h4 hm).2
    rw [hi] at g
    rw [headSize_zero g.2] at hs
    cases hs
  case body size r hm hi hs hst =>
    have g := (h4 hm).2
    rw [hi] at g
    rw [headSize_zero g.2] at hs
    cases hs
    obtain ⟨g1, g2, rfl⟩ := ring_callR hst
    refine ⟨h1, ⟨h2.put, h2.pub, h2.input, fun _ => .inr g.1⟩, by simp, by simp, fun size e => ?_, by simp, by simp⟩
    cases e
    exact ⟨rfl, g.1, by simp, .inl rfl⟩
  case bodyCrash size hm hi hs =>
    have := (h5 size hm).1
    omega
  case parse size resp d hm hi hs hd =>
    cases (h5 size hm).1
    rcases header_start (raw := s.ring.rdst) (size := 0) (by omega) (by omega) (by omega) with ⟨_, e⟩ | ⟨e, _⟩
    · rw [e] at hd; cases hd
    · omega
  case skip size e d hm hi hs hd =>
    exact ⟨h1, h2, fun _ => ⟨hi, .inl (h5 size hm).2.1⟩, by simp, by simp, by simp, by simp⟩
  case parseCrash size hm hi hs hd =>
    cases (h5 size hm).1
    rcases header_start (raw := s.ring.rdst) (size := 0) (by omega) (by omega) (by omega) with ⟨_, e⟩ | ⟨e, _⟩
    · rw [e] at hd; cases hd
    · omega
  case read data r hl hrc hlen hst =>
    have e : data = [] := by
      simp only [List.length_append] at hrec
      exact List.length_eq_zero_iff.1 (by omega)
    subst e
    simp only [Ring.step] at hst
    split at hst <;> cases hst
    exact ⟨h1, ⟨h2.put, h2.pub, .inr ⟨rfl, .inl rfl⟩, h2.rset⟩, h3, h4, h5, h6, h7⟩
  case ring a r ha hst =>
    cases a <;> try (simp [inRing] at ha; done)
    · obtain ⟨g1, g2, g3⟩ := h2.w hst
      have hw : r.rpc = s.ring.rpc ∧ r.got = s.ring.got := by
        rcases h2.input with g | ⟨g0, g | g | g⟩ <;> simp only [Ring.step, Ring.wStep, g, reduceCtorEq, Option.some.injEq] at hst
        · subst hst; exact ⟨rfl, rfl⟩
        · subst hst; unfold Ring.wLoop; split <;> exact ⟨rfl, rfl⟩
        · subst hst; split <;> exact ⟨rfl, rfl⟩
      refine ⟨h1, g1, fun hm => ?_, fun hm => g2 (h4 hm), fun size hm => ?_, fun hm => ?_, h7⟩
      · show r.rpc = _ ∧ (_ ∨ r.got.length = _)
        rw [hw.1, hw.2]; exact h3 hm
      · exact ⟨(h5 size hm).1, (h5 size hm).2.1, g3 (h5 size hm).2.2⟩
      · show r.rpc = _
        rw [hw.1]; exact h6 hm
    · rcases h7 with hm | hm | ⟨size, hm⟩ | hm
      · simp [Ring.step, Ring.rStep, (h3 hm).1] at hst
      · obtain ⟨g1, g2⟩ := h2.rHead hn hpos hhist hcalls.rlen hcl (h4 hm) hst
        exact ⟨h1, g1, fun e => absurd (hm.symm.trans e) (by simp), fun _ => g2, fun size e => absurd (hm.symm.trans e) (by simp),
          fun e => absurd (hm.symm.trans e) (by simp), .inr (.inl hm)⟩
      · obtain ⟨g0, g3, g4⟩ := h5 size hm
        rw [g3] at h2
        obtain ⟨g1, g2⟩ := h2.rBody g4 hst
        refine ⟨h1, by simp only [g3]; exact g1, fun e => absurd (hm.symm.trans e) (by simp),
          fun e => absurd (hm.symm.trans e) (by simp), fun size' e => ?_, fun e => absurd (hm.symm.trans e) (by simp), .inr (.inr (.inl ⟨size, hm⟩))⟩
        cases hm.symm.trans e
        exact ⟨g0, g3, g2⟩
      · simp [Ring.step, Ring.rStep, h6 hm] at hst
    · rw [h2.hand.1] at hst; cases hst
    · rw [h2.hand.2] at hst; cases hst
  case full hf =>
    obtain ⟨size, hm, hx⟩ := hr.full hP hf
    have := (h5 size hm).1
    omega
  case rbClose k r hk hst =>
    cases hst
    exact ⟨h1, ⟨h2.put, h2.pub, h2.input, h2.rset⟩, h3, h4, h5, h6, h7⟩
  case cancel k hk =>
    exact ⟨h1, h2.mono, fun hm => ⟨(h3 hm).1, .inl rfl⟩, fun hm => (h4 hm).mono, fun size hm => ⟨(h5 size hm).1, rfl, (h5 size hm).2.2⟩,
      h6, h7⟩
  case mlock id d hm _ => simpa using no hm
  case lookup id d hm => simpa using no hm
  case delete id d c hm => simpa using no hm
  case drop d hm => simpa using no hm
  case munlock d c hm => simpa using no hm
  case decodeCrash d c hm _ => simpa using no hm
  case decode d c hm _ => simpa using no hm
  case send d c hm _ => simpa using no hm
  all_goals exact ⟨h1, h2, h3, h4, h5, h6, h7⟩

theorem received_trans {P : Params} {s s' : Conn.State} {a : Act} (ht : Trans P s a s') :
    s.received.length ≤ s'.received.length := by
  cases ht <;> first | exact Nat.le_refl _ | (simp; done)

theorem received_run {P : Params} {as : List Act} {s s' : Conn.State} (h : Conn.run P as s = some s') :
    s.received.length ≤ s'.received.length :=
  run_inv (I := fun x => s.received.length ≤ x.received.length) (ok := fun _ => True)
    (fun _ _ _ h _ ht => Nat.le_trans h (received_trans ht)) as (fun _ _ => trivial) (Nat.le_refl _) h

theorem Dry.run {P : Params} (hP : 4 ≤ P.buf) {n : Nat} (hn : n + 4 ≤ P.ring) : ∀ (as : List Act) {s s' : Conn.State},
    Conn.Reach P Conn.Any s → Dry n s → Conn.run P as s = some s' → s'.received.length = s.received.length → Dry n s'
  | [], s, s', _, h, hrun, _ => by cases hrun; exact h
  | a :: as, s, s', hr, h, hrun, hl => by
    simp only [Conn.run] at hrun
    obtain ⟨s1, h1, h2⟩ := Option.bind_eq_some_iff.1 hrun
    have g1 := received_trans (step_trans h1)
    have g2 := received_run h2
    exact Dry.run hP hn as (hr.step a trivial h1) (h.trans hP hn hr (step_trans h1) (by omega)) h2 (by omega)

theorem Calm.dry {P : Params} {s : Conn.State} (hr : Conn.Reach P Conn.Any s) (hP : 4 ≤ P.buf) (h : Conn.Calm P s) :
    Dry s.received.length s := by
  have hq := h.quiet
  have hput : s.ring.put = s.received := by
    rw [← (hr.stream hP).given, hq.calls.given, hq.wpc]
    simp [Ring.WPc.wrote, hq.calls.wlen]
  have hgot : s.ring.got.length = s.received.length := by
    have h1 := h.empty
    have h2 := hq.fifo.pre.length_le
    simp only [Ring.queue, List.drop_eq_nil_iff] at h1
    rw [hput] at h1 h2
    omega
  refine ⟨h.crashed, ⟨by rw [hput], by rw [hq.pos.wpub (by rw [hq.wpc]; rfl), hput], .inl hq.wpc, by simp [hq.rset]⟩,
    fun _ => ⟨hq.rpc, .inr hgot⟩, ?_, ?_, ?_, .inl h.mpc⟩ <;> simp [h.mpc]

/-- It holds as long as no more has been received than the ring buffer holds: `messageLoop` then reads zeros, that is, a frame
of no bytes, before it notices that the connection is closed.  Missing: connections on which more has been received. -/
theorem C55_partial {P : Params} (hP : 4 ≤ P.buf) : C55_statement P (fun s => s.received.length + 4 ≤ P.ring) := by
  intro s hr h hn as s' hrun hrec
  exact ((Calm.dry hr hP h).run hP hn as hr hrun (by rw [hrec])).crashed

/-- Non-trivial instance: a call has been made and has returned its reply, which fills more than half of the ring buffer. -/
example : ∃ s d, Conn.Reach small Conn.Any s ∧ Conn.Calm small s ∧ s.received.length + 4 ≤ small.ring ∧
    s.received.length = 8 ∧ (s.calls 0).pc = .done (.reply d) := by
  obtain ⟨s1, l1, h1⟩ := (Conn.Calm.init (P := small) (by decide)).ask (c := 0) rfl sampleJob
  obtain ⟨s2, l2, d, h2⟩ := h1.calm.answer (by decide) (by decide) (l1.reach .init) h1.registered h1.pc
    (payload := Wire.int32 1) (List.prefix_refl _) (by rw [wire_int32]; decide) (by rw [wire_int32]; decide)
    (by rw [wire_int32]; decide) (fun d _ => by rw [h1.job]; rfl)
  have hl : s2.received.length = 8 := by
    rw [h2.received, h1.received, wire_int32, wire_int32]
    rfl
  exact ⟨s2, d, (l1.trans l2).reach .init, h2.calm, by rw [hl]; decide, hl, h2.pc⟩

/-- The claim is false: when more has been received than the ring buffer holds and `messageLoop` is waiting, `Close` lets it
read the size of a frame from bytes received long ago.  Here the size is greater than the buffer, and the program
crashes. -/
theorem C55_fails {P : Params} (hN : 16 ≤ P.ring) (hP : 8 ≤ P.buf) (hb : P.buf < 0x7F7F7F7F) :
    ¬C55_statement P (fun _ => True) := by
  obtain ⟨s, hr, hcalm, hlen, hold, hcl⟩ := wrapped hN hP
  intro h
  suffices hx : ∃ s', Leads P s s' ∧ s'.received = s.received ∧ s'.crashed = true by
    obtain ⟨s', ⟨as, h1⟩, h2, h3⟩ := hx
    rw [h s hr hcalm trivial as s' h1 h2] at h3
    cases h3
  have hq := hcalm.quiet
  have hring : Ring.Reach P.ring Ring.Any s.ring := hr.ring (fun _ _ _ => trivial) (fun _ _ _ => trivial)
  have hput : s.ring.put = s.received := by
    rw [← (hr.stream (by omega)).given, hq.calls.given, hq.wpc]
    simp [Ring.WPc.wrote, hq.calls.wlen]
  have hgot : s.ring.got.length = P.ring + 4 := by
    have h1 := hcalm.empty
    have h2 := hq.fifo.pre.length_le
    simp only [Ring.queue, List.drop_eq_nil_iff] at h1
    rw [hput, hlen] at h1 h2
    omega
  have hstart : s.ring.start = 4 := by
    rw [hq.pos.start, hq.pos.rrel (by rw [hq.rpc]; rfl), hgot, Nat.add_mod_left]
    exact Nat.mod_eq_of_lt (by omega)
  have hnext : s.ring.next = 4 := by
    rw [hq.pos.next, hq.pos.wpub (by rw [hq.wpc]; rfl), hput, hlen, Nat.add_mod_left]
    exact Nat.mod_eq_of_lt (by omega)
  have hmem : ∀ i, i < 4 → s.ring.mem (4 + i) = 0x7F := fun i hi => by
    have h1 := (hring.hist (by omega)).last (4 + i) (by rw [hput, hlen]; omega) (by rw [hput, hlen]; omega)
    rw [Nat.mod_eq_of_lt (by omega)] at h1
    rw [h1, hput, hold i hi]
  have m0 := hmem 0 (by omega)
  have m1 := hmem 1 (by omega)
  have m2 := hmem 2 (by omega)
  have m3 := hmem 3 (by omega)
  simp only [Nat.reduceAdd] at m0 m1 m2 m3
  have hopen : s.ring.closed = false := by
    cases h1 : s.ring.closed with
    | false => rfl
    | true => have := ringClosed_inv hr h1; rw [hcalm.cancelled] at this; cases this
  have hbuf := hr.frames.buf
  have e5 : ¬5 = P.ring := by omega
  have e6 : ¬6 = P.ring := by omega
  have e7 : ¬7 = P.ring := by omega
  have e8 : ¬8 = P.ring := by omega
  obtain ⟨b0, b1, b2, b3, t, ht⟩ : ∃ b0 b1 b2 b3 t, s.buf = b0 :: b1 :: b2 :: b3 :: t := by
    match hm : s.buf with
    | b0 :: b1 :: b2 :: b3 :: t => exact ⟨_, _, _, _, _, rfl⟩
    | [] | [_] | [_, _] | [_, _, _] => rw [hm] at hbuf; simp at hbuf; omega
  rw [ht] at hbuf
  simp only [List.length_cons] at hbuf
  refine Leads.next .message (by
    simp [Conn.step, messageStep, readN, hcalm.crashed, hcalm.mpc, hcalm.cancelled, ht, Ring.step, hq.rpc]; rfl) ?_
  iterate 5 refine Leads.next (.ring .r) (by
    simp [Conn.step, hcalm.crashed, inRing, Ring.step, Ring.rStep, Ring.rLoop, hq.rset, hstart, hnext]; rfl) ?_
  iterate 3 refine Leads.next (.close 0) (by simp [Conn.step, hcalm.crashed, closeStep, Ring.step, hcl]; rfl) ?_
  iterate 7 refine Leads.next (.ring .r) (by
    simp [Conn.step, hcalm.crashed, inRing, Ring.step, Ring.rStep, Ring.rLoop, Ring.rWaited, Ring.rReturn, Ring.incr,
      e5, e6, e7, e8, hq.wset, m0, m1, m2, m3]; rfl) ?_
  have hs : headSize (127#8 :: 127#8 :: 127#8 :: 127#8 :: t) = some 0x7F7F7F7F := by
    obtain ⟨v, h1, h2⟩ := headSize_eq (buf := 127#8 :: 127#8 :: 127#8 :: 127#8 :: t) (by simp)
    rw [wire_int32] at h1
    have h3 := beUint32_be32 v.toBitVec []
    rw [← h1] at h3
    have h4 : v = Int32.ofBitVec (0x7F7F7F7F#32) := Int32.toBitVec_inj.1 (Option.some.inj h3).symm
    rw [h2, h4]
    rfl
  have hroom : room (127#8 :: 127#8 :: 127#8 :: 127#8 :: t) 0x7F7F7F7F = 127#8 :: 127#8 :: 127#8 :: 127#8 :: (t ++ [0]) := by
    rw [room, if_pos (by simp only [List.length_cons]; omega)]
    rfl
  have hmin : min (Int.toNat 0x7F7F7F7F) (t.length + 1 + 1 + 1 + 1 + 1) = t.length + 1 + 1 + 1 + 1 + 1 :=
    Nat.min_eq_right (by omega)
  refine Leads.next .message (by
    simp only [Conn.step, messageStep, readN, Ring.step, hs, hroom, hmin, List.length_cons, List.length_append, List.length_nil,
      Nat.zero_add, Nat.le_refl, and_self, if_true, Option.map_some, Bool.false_eq_true, if_false]; rfl) ?_
  refine oversize_crash _ (Nat.le_refl _) rfl rfl ⟨?_, .inl rfl⟩
  show t.length + 1 + 1 + 1 + 1 + 1 = (127#8 :: 127#8 :: 127#8 :: 127#8 :: t).length + 1
  rfl

end Kafka.Props
