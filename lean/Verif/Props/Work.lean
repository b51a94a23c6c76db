import Verif.Conn.Work
import Verif.Ring.Rounds
import Verif.Props.TimelyConn
import Verif.Props.Whole
/-!
Property C86: a connection works only for what it receives.
-/
set_option linter.unusedSimpArgs false

namespace Kafka.Props

open Conn

/-- The number of times `raw.Read` returns without an error in a schedule. -/
def reads (as : List Act) : Nat := (as.filter (·.isRead)).length

theorem run_work {P : Params} (hP : 4 ≤ P.buf) : ∀ (as : List Act) {s s' : Conn.State}, Conn.Reach P Conn.Any s →
    Conn.run P as s = some s' → s'.crashed = false →
    messageSteps as + mWork s ≤ mWork s' ∧
    headerBytes s' + s.ring.got.length ≤ headerBytes s + s'.ring.got.length ∧
    readSteps as + lCost s' + 7 * s.received.length ≤ lCost s + 7 * s'.received.length + 7 * reads as
  | [], s, s', _, hrun, _ => by cases hrun; simp [messageSteps, readSteps, reads]
  | a :: as, s, s', h, hrun, hc => by
    simp only [Conn.run] at hrun
    obtain ⟨s1, h1, h2⟩ := Option.bind_eq_some_iff.1 hrun
    have ht := step_trans h1
    have hc1 := crashed_run h2 hc
    have hcalls : Ring.Calls s.ring := (h.ring (rok := Ring.Any) (fun _ _ _ => trivial) (fun _ _ _ => trivial)).calls
    have m := mWork_step ht hc1
    have l := lWork_step h.writer ht
    have d := headerBytes_step hcalls (fun hm => by
      obtain ⟨_, _, e, _⟩ := (h.stream hP).head hm
      have := h.frames.head hm
      omega) ht hc1
    obtain ⟨i1, i2, i3⟩ := run_work hP as (h.step a trivial h1) h2 hc
    simp only [messageSteps, readSteps, reads, List.filter_cons] at i1 i2 i3 ⊢
    refine ⟨?_, by omega, ?_⟩
    · cases ha : a.ofMessage <;> simp [ha] at m ⊢ <;> omega
    · cases ha : a.ofRead <;> cases hb : a.isRead <;> simp [ha, hb] at l ⊢ <;> omega

theorem headerBytes_le {s : Conn.State} (hc : Ring.Calls s.ring) (hn : s.mpc = .inHead → s.ring.rn = 4) :
    headerBytes s ≤ 4 * s.frames.length + 4 := by
  unfold headerBytes
  have h1 := hc.rbody
  have h2 := hc.rend
  cases hm : s.mpc with
  | inHead =>
    have := hn hm
    simp only
    cases hp : s.ring.rpc <;> simp [hp, Ring.RPc.header, Ring.RPc.inBody, Ring.RPc.ending] at h1 h2 ⊢ <;> omega
  | _ => simp only; omega

theorem run_got_le {P : Params} {as : List Act} {s s' : Conn.State} (hrun : Conn.run P as s = some s') :
    s.ring.got.length ≤ s'.ring.got.length := by
  refine run_inv (I := fun x => s.ring.got.length ≤ x.ring.got.length) (ok := fun _ => True) (fun x x' a hi _ ht => ?_) as
    (fun _ _ => trivial) (Nat.le_refl _) hrun
  have hg : ∀ {a : Ring.Action} {r : Ring.State}, Ring.step P.ring a x.ring = some r → s.ring.got.length ≤ r.got.length :=
    fun {a} {r} hr => by
      rcases step_got hr with h | ⟨_, _, h⟩ <;> rw [h]
      · exact hi
      · rw [List.length_append]; omega
  cases ht
  case ring hr => exact hg hr
  case head hr => exact hg hr
  case body hr => exact hg hr
  case read hr => exact hg hr
  case rbClose hr => exact hg hr
  all_goals exact hi

/-! ## C86: A connection works only for what it receives -/

/-- In every schedule, from every state: `messageLoop` makes at most 16 steps for each byte it reads from the ring buffer,
and 79 more; `readLoop` makes at most 7 for each byte that `raw.Read` returns and for each byte it has not yet stored,
7 for each return of `raw.Read`, and 12 more. -/
theorem C86_steps {P : Params} (hP : 4 ≤ P.buf) {s : Conn.State} (h : Conn.Reach P Conn.Any s) {as : List Act}
    {s' : Conn.State} (hrun : Conn.run P as s = some s') (hc : s'.crashed = false) :
    messageSteps as + 16 * s.ring.got.length ≤ 16 * s'.ring.got.length + 79 ∧
    readSteps as + 7 * s.ring.put.length ≤ 7 * s'.received.length + 7 * reads as + 12 := by
  obtain ⟨h1, h2, h3⟩ := run_work hP as h hrun hc
  have hcalls : Ring.Calls s.ring := (h.ring (rok := Ring.Any) (fun _ _ _ => trivial) (fun _ _ _ => trivial)).calls
  have h4 := headerBytes_le hcalls (fun hm => by
    obtain ⟨_, _, e, _⟩ := (h.stream hP).head hm
    have := h.frames.head hm
    omega)
  have h5 : 4 * s'.frames.length ≤ headerBytes s' := by unfold headerBytes; omega
  have h6 := s'.ring.rpc.used_le
  have h7 := s'.mpc.used_le
  have h8 := Ring.wCost_le hcalls
  have h9 := congrArg List.length (h.stream hP).given
  have h10 : lCost s ≤ 2 + Ring.wCost s.ring := by unfold lCost; cases s.lpc <;> simp only <;> omega
  have h11 := run_got_le hrun
  unfold mWork Ring.rWork at h1
  constructor <;> omega

/-- The full claim: from any state on, both goroutines together make at most 23 steps for each byte that is received or
that `messageLoop` has not yet read, 7 for each return of `raw.Read`, and 100 more.  So they do not go round for nothing, and
when nothing more comes they stop soon. -/
def C86_statement (P : Params) (ok : Conn.State → Act → Prop) : Prop :=
  ∀ s, Conn.Reach P ok s → ∀ as s', (∀ x ∈ connTrace P as s, ok x.1 x.2) → Conn.run P as s = some s' → s'.crashed = false →
    messageSteps as + readSteps as ≤ 23 * (s'.received.length - s.ring.got.length) + 7 * reads as + 100

/-- It holds in the schedules in which every byte of the ring buffer is read in time (see C25).  Missing for the full claim:
the schedules in which `messageLoop` reads bytes that were not received (`C86_fails`). -/
theorem C86_partial {P : Params} (hN : 0 < P.ring) (hP : 4 ≤ P.buf) : C86_statement P (InTimeConn P) := by
  intro s h as s' has hrun hc
  have any : ∀ {s : Conn.State}, Conn.Reach P (InTimeConn P) s → Conn.Reach P Conn.Any s := fun h => by
    induction h with
    | init => exact .init
    | step a _ _ hs ih => exact ih.step a trivial hs
  have h' := connReach_trace as h has hrun
  obtain ⟨h1, h2⟩ := C86_steps hP (any h) hrun hc
  have key : ∀ {s : Conn.State}, Conn.Reach P (InTimeConn P) s → s.ring.got.length ≤ s.ring.put.length ∧
      s.ring.put.length ≤ s.received.length := fun {s} h => by
    have hr := inTimeRing h
    have e := congrArg List.length ((any h).stream hP).given
    have g := congrArg List.length hr.calls.given
    rw [List.length_append] at g
    exact ⟨(Reach.inTime hN hr).length_le, by omega⟩
  have k := key h
  have k' := key h'
  omega

theorem RunsTo.run {P : Params} {ok : Conn.State → Act → Prop} {p : Conn.State → Prop} : ∀ {as : List Act} {s : Conn.State},
    RunsTo P ok p as s → ∃ s', Conn.run P as s = some s' ∧ p s'
  | [], _, h => ⟨_, rfl, h⟩
  | _ :: _, _, ⟨_, _, e, h⟩ => by
    obtain ⟨s2, h1, h2⟩ := RunsTo.run h
    exact ⟨s2, by simp [Conn.run, e, h1], h2⟩

theorem closed_run {P : Params} {as : List Act} {s s' : Conn.State} (hrun : Conn.run P as s = some s')
    (hc : s'.ring.closed = false) : s.ring.closed = false := by
  cases hs : s.ring.closed with
  | false => rfl
  | true =>
    have := run_inv (I := fun x => x.ring.closed = true) (ok := fun _ => True) (fun x x' a hi _ ht => by
      cases ht
      case ring hr => exact Ring.step_closed hr hi
      case head hr => exact Ring.step_closed hr hi
      case body hr => exact Ring.step_closed hr hi
      case read hr => exact Ring.step_closed hr hi
      case rbClose hr => exact Ring.step_closed hr hi
      all_goals exact hi) as (fun _ _ => trivial) hs hrun
    rw [hc] at this
    cases this

theorem run_ahead {P : Params} (hN : 0 < P.ring) : ∀ (as : List Act) {s s' : Conn.State}, Conn.Reach P Conn.Any s →
    Conn.run P as s = some s' → s'.ring.closed = false →
    s'.ring.got.length + Ring.ahead P.ring s'.ring ≤ s.ring.got.length + Ring.ahead P.ring s.ring + P.ring * readSteps as
  | [], s, s', _, hrun, _ => by cases hrun; simp [readSteps]
  | a :: as, s, s', h, hrun, hc => by
    have hopen := closed_run hrun hc
    simp only [Conn.run] at hrun
    obtain ⟨s1, h1, h2⟩ := Option.bind_eq_some_iff.1 hrun
    have ht := step_trans h1
    have hr1 := h.step a trivial h1
    have ih := run_ahead hN as hr1 h2 hc
    have ring : ∀ {s : Conn.State}, Conn.Reach P Conn.Any s → Ring.Reach P.ring Ring.Any s.ring := fun h =>
      h.ring (fun _ _ _ => trivial) (fun _ _ _ => trivial)
    have p := (ring h).pos hN
    have p1 := (ring hr1).pos hN
    have hm : s.ring.rpc = .waitCas → s.ring.rset = false := fun e => by
      have := ((ring h).pair hopen).rset
      cases hs : s.ring.rset with
      | false => rfl
      | true => rw [hs, e] at this; simp at this
    have m : s1.ring.got.length + Ring.ahead P.ring s1.ring ≤ s.ring.got.length + Ring.ahead P.ring s.ring +
        if a.ofRead = true then P.ring else 0 := by
      have hstep : ∀ {b : Ring.Action} {r : Ring.State}, Ring.Pos P.ring r → Ring.step P.ring b s.ring = some r →
          r.got.length + Ring.ahead P.ring r ≤ s.ring.got.length + Ring.ahead P.ring s.ring +
            if b.ofWriter then P.ring else 0 := fun hr hs => Ring.step_ahead hN p hr hm hopen hs
      clear ih h2 hrun h1 hr1
      cases ht
      case ring b r hb hr => exact hstep p1 hr
      case head r _ _ hr => exact hstep p1 hr
      case body r _ _ _ hr => exact hstep p1 hr
      case rbClose r _ hr => exact hstep p1 hr
      case read r _ _ _ hr => exact Nat.le_trans (hstep p1 hr) (Nat.add_le_add_left (Nat.zero_le _) _)
      all_goals exact Nat.le_add_right _ _
    simp only [readSteps, List.filter_cons] at ih ⊢
    cases ha : a.ofRead <;> simp [ha, Nat.mul_add] at m ⊢ <;> omega

/-- In every schedule, until `Close` has closed the ring buffer: `messageLoop` goes round the ring buffer at most once for
each step of `readLoop`, and twice more. -/
theorem C86_rounds {P : Params} (hN : 0 < P.ring) (hP : 4 ≤ P.buf) {s : Conn.State} (h : Conn.Reach P Conn.Any s) {as : List Act}
    {s' : Conn.State} (hrun : Conn.run P as s = some s') (hc : s'.crashed = false) (ho : s'.ring.closed = false) :
    messageSteps as ≤ 16 * (P.ring * (readSteps as + 2)) + 79 := by
  have h1 := (C86_steps hP h hrun hc).1
  have h2 := run_ahead hN as h hrun ho
  have h3 := Ring.ahead_le hN ((h.ring (rok := Ring.Any) (fun _ _ _ => trivial) (fun _ _ _ => trivial)).pos hN)
  rw [Nat.mul_add]
  omega

/-- So also in the schedules that `C86_partial` leaves out the goroutines come to rest: when nothing is received and nothing
is left to be stored, they make at most `224 * P.ring + 91` more steps. -/
theorem C86_rest {P : Params} (hN : 0 < P.ring) (hP : 4 ≤ P.buf) {s : Conn.State} (h : Conn.Reach P Conn.Any s) {as : List Act}
    {s' : Conn.State} (hrun : Conn.run P as s = some s') (hc : s'.crashed = false) (ho : s'.ring.closed = false)
    (hr : reads as = 0) (hs : s'.received.length = s.ring.put.length) : messageSteps as + readSteps as ≤ 224 * P.ring + 91 := by
  have h1 := C86_rounds hN hP h hrun hc ho
  have h2 := (C86_steps hP h hrun hc).2
  have h3 : readSteps as ≤ 12 := by omega
  have h4 : P.ring * (readSteps as + 2) ≤ P.ring * 14 := Nat.mul_le_mul_left _ (by omega)
  omega

/-- A frame is received and stored. -/
def stores : List Act := [.read [0, 0, 0, 4, 0, 0, 0, 1]] ++ List.replicate 12 (.ring .w)

/-- `messageLoop` reads it, and drops it. -/
def drops : List Act :=
  [.message] ++ List.replicate 8 (.ring .r) ++ [.message] ++ List.replicate 8 (.ring .r) ++ List.replicate 4 .message

/-- Non-trivial instance of `C86_rounds` and `C86_rest`. -/
example : ∃ s s', Conn.run small stores (Conn.init small) = some s ∧ Conn.run small drops s = some s' ∧ s'.crashed = false ∧
    s'.ring.closed = false ∧ reads drops = 0 ∧ s'.received.length = s.ring.put.length ∧ s.ring.put.length = 8 ∧
    20 ≤ messageSteps drops := by
  have h1 : ((Conn.run small stores (Conn.init small)).map fun s => s.ring.put.length) = some 8 := by decide +kernel
  have h2 : ((Conn.run small (stores ++ drops) (Conn.init small)).map fun s => (s.crashed, s.ring.closed, s.received.length)) =
    some (false, false, 8) := by decide +kernel
  obtain ⟨s, h3, h4⟩ := Option.map_eq_some_iff.1 h1
  obtain ⟨s', h5, h6⟩ := Option.map_eq_some_iff.1 h2
  rw [Conn.run_append] at h5
  obtain ⟨s1, h7, h8⟩ := Option.bind_eq_some_iff.1 h5
  clear h5 h1 h2
  simp only [Prod.mk.injEq] at h6
  have e : s1 = s := Option.some.inj (h7.symm.trans h3)
  exact ⟨s, s', h3, e ▸ h8, h6.1, h6.2.1, by decide, by rw [h6.2.2, h4], h4, by decide⟩

/-- Reading a frame without contents. -/
def zeroFrame : List Act :=
  [.message] ++ List.replicate 8 (.ring .r) ++ [.message] ++ List.replicate 3 (.ring .r) ++ [.message]

/-- `messageLoop` is about to read cells from `p` on in which nothing has been stored. -/
structure Unstored (P : Params) (p : Nat) (s : Conn.State) : Prop where
  crashed : s.crashed = false
  cancelled : s.cancelled = false
  mpc : s.mpc = .top
  rpc : s.ring.rpc = .idle
  start : s.ring.start = p
  next : s.ring.next < p
  wset : s.ring.wset = false
  mem : ∀ j, p ≤ j → s.ring.mem j = 0
  buf : ∃ rest, s.buf = 0 :: 0 :: 0 :: 0 :: rest

theorem zeroFrame_runs {P : Params} {p : Nat} {s : Conn.State} (hp : p + 4 < P.ring) (h : Unstored P p s) :
    ∃ s', Conn.run P zeroFrame s = some s' ∧ s'.received = s.received ∧ Unstored P (p + 4) s' := by
  obtain ⟨h1, h2, h3, h4, h5, h6, h7, h8, rest, h9⟩ := h
  have m0 := h8 p (by omega)
  have m1 := h8 (p + 1) (by omega)
  have m2 := h8 (p + 2) (by omega)
  have m3 := h8 (p + 3) (by omega)
  have i0 : Ring.incr P.ring p = p + 1 := if_neg (by omega)
  have i1 : Ring.incr P.ring (p + 1) = p + 2 := if_neg (by omega)
  have i2 : Ring.incr P.ring (p + 2) = p + 3 := if_neg (by omega)
  have i3 : Ring.incr P.ring (p + 3) = p + 4 := if_neg (by omega)
  have n0 : ¬p = s.ring.next := by omega
  have n1 : ¬p + 1 = s.ring.next := by omega
  have n2 : ¬p + 2 = s.ring.next := by omega
  have n3 : ¬p + 3 = s.ring.next := by omega
  have hs0 : headSize (0#8 :: 0#8 :: 0#8 :: 0#8 :: rest) = some 0 := rfl
  have hr0 : room (0#8 :: 0#8 :: 0#8 :: 0#8 :: rest) 0 = 0#8 :: 0#8 :: 0#8 :: 0#8 :: rest :=
    if_neg (by simp only [List.length_cons]; omega)
  obtain ⟨id, requests, readLock, writeLock, werr, cancelled, rawClosed, ring, calls, mpc, buf, lpc, closers, crashed, wire, received,
    lost, count, started, frames⟩ := s
  obtain ⟨mem, next, start, rset, wset, closed, wpc, wdata, wn, wi, wpos, wstart, wwrote, rpc, rdst, rn, ri, rpos, rnext, rread,
    put, got, pub, rel, wrel, rpub, wres, rres, given, taken, rorig⟩ := ring
  dsimp only at *
  subst h1 h2 h3 h4 h5 h7 h9
  have h : RunsTo P (fun _ _ => True) (fun s' => s'.received = received ∧ Unstored P (start + 4) s') zeroFrame
      ⟨id, requests, readLock, writeLock, werr, false, rawClosed, ⟨mem, next, start, rset, false, closed, wpc, wdata, wn, wi, wpos,
        wstart, wwrote, .idle, rdst, rn, ri, rpos, rnext, rread, put, got, pub, rel, wrel, rpub, wres, rres, given, taken, rorig⟩,
        calls, .top, 0 :: 0 :: 0 :: 0 :: rest, lpc, closers, false, wire, received, lost, count, started, frames⟩ := by
    unfold zeroFrame
    simp only [List.replicate, List.cons_append, List.nil_append]
    iterate 9 refine ⟨trivial, _, (by
      simp [Conn.step, messageStep, readN, inRing, full, Ring.step, Ring.rStep, Ring.rLoop, Ring.rReturn, m0, m1, m2, m3, i0, i1, i2, i3,
        n0, n1, n2, n3]; rfl), ?_⟩
    refine ⟨trivial, _, (by simp [Conn.step, messageStep, readN, hs0, hr0, Ring.step]; rfl), ?_⟩
    iterate 3 refine ⟨trivial, _, (by
      simp [Conn.step, messageStep, readN, inRing, full, Ring.step, Ring.rStep, Ring.rLoop, Ring.rReturn]; rfl), ?_⟩
    refine ⟨trivial, _, (by simp [Conn.step, messageStep]; rfl), ?_⟩
    exact ⟨rfl, ⟨rfl, rfl, rfl, rfl, rfl, by show next < start + 4; omega, rfl, fun j hj => h8 j (by omega), _, rfl⟩⟩
  exact h.run

/-- Any number of frames that were never received, one after the other, as long as the ring buffer has cells. -/
theorem zeroFrames_run {P : Params} : ∀ (k : Nat) {p : Nat} {s : Conn.State}, p + 4 * k < P.ring → Unstored P p s →
    ∃ as s', Conn.run P as s = some s' ∧ s'.received = s.received ∧ s'.crashed = false ∧ messageSteps as = 14 * k ∧ reads as = 0
  | 0, _, s, _, h => ⟨[], s, rfl, rfl, h.crashed, rfl, rfl⟩
  | k + 1, p, s, hp, h => by
    obtain ⟨s1, h1, h2, h3⟩ := zeroFrame_runs (by omega) h
    obtain ⟨as, s2, h4, h5, h6, h7, h8⟩ := zeroFrames_run k (by omega) h3
    refine ⟨zeroFrame ++ as, s2, by rw [Conn.run_append, h1]; exact h4, h5.trans h2, h6, ?_, ?_⟩
    · have e : (zeroFrame.filter (·.ofMessage)).length = 14 := rfl
      unfold messageSteps at h7 ⊢
      rw [List.filter_append, List.length_append, e, h7]
      omega
    · have e : (zeroFrame.filter (·.isRead)).length = 0 := rfl
      unfold reads at h8 ⊢
      rw [List.filter_append, List.length_append, e, h8]

/-- One reply of 8 bytes has been received, in one piece; `messageLoop` makes as many steps as one likes, if the ring buffer is
large enough. -/
theorem C86_unbounded {P : Params} {k : Nat} (hN : 16 + 4 * k ≤ P.ring) (hP : 8 ≤ P.buf) :
    ∃ as s, Conn.run P as (Conn.init P) = some s ∧ s.received.length = 8 ∧ reads as = 1 ∧ s.crashed = false ∧
      14 * k ≤ messageSteps as := by
  obtain ⟨N, B⟩ := P
  obtain ⟨M, rfl⟩ := Nat.exists_eq_add_of_le' (Nat.le_trans (Nat.le_add_right 16 (4 * k)) hN)
  obtain ⟨B, rfl⟩ := Nat.exists_eq_add_of_le' hP
  have ew : Wire.int32 1 = [0, 0, 0, 1] := by rw [wire_int32]; rfl
  have hs4 : headSize (0#8 :: 0#8 :: 0#8 :: 4#8 :: 0#8 :: 0#8 :: 0#8 :: 0#8 :: List.replicate B 0#8) = some 4 := rfl
  have hr4 : room (0#8 :: 0#8 :: 0#8 :: 4#8 :: 0#8 :: 0#8 :: 0#8 :: 0#8 :: List.replicate B 0#8) 4 =
      0#8 :: 0#8 :: 0#8 :: 4#8 :: 0#8 :: 0#8 :: 0#8 :: 0#8 :: List.replicate B 0#8 :=
    if_neg (by simp only [List.length_cons, List.length_replicate]; omega)
  have h : RunsTo ⟨M + 16, B + 8⟩ (fun _ _ => True) (fun s => s.received.length = 8 ∧ Unstored ⟨M + 16, B + 8⟩ 12 s) staleWake
      (Conn.init ⟨M + 16, B + 8⟩) := by
    unfold staleWake callDo Conn.init Ring.init sampleJob
    simp only [List.replicate, List.cons_append, List.nil_append]
    iterate 11 refine ⟨trivial, _, (by simp [Conn.step, callStep, State.set, upd, ew]; rfl), ?_⟩
    iterate 12 refine ⟨trivial, _, (by
      simp [Conn.step, inRing, Ring.step, Ring.wStep, Ring.wLoop, Ring.wReturn, Ring.incr]; rfl), ?_⟩
    iterate 9 refine ⟨trivial, _, (by
      simp [Conn.step, messageStep, readN, inRing, Ring.step, Ring.rStep, Ring.rLoop, Ring.rReturn, Ring.incr, List.replicate_succ]; rfl), ?_⟩
    refine ⟨trivial, _, (by simp [Conn.step, messageStep, readN, hs4, hr4, Ring.step]; rfl), ?_⟩
    iterate 8 refine ⟨trivial, _, (by
      simp [Conn.step, messageStep, readN, inRing, Ring.step, Ring.rStep, Ring.rLoop, Ring.rReturn, Ring.incr, List.replicate_succ]; rfl), ?_⟩
    iterate 7 refine ⟨trivial, _, (by simp [Conn.step, messageStep, upd, State.set]; rfl), ?_⟩
    refine ⟨trivial, _, (by simp [Conn.step, callStep, upd, State.set]; rfl), ?_⟩
    iterate 6 refine ⟨trivial, _, (by
      simp [Conn.step, messageStep, readN, inRing, Ring.step, Ring.rStep, Ring.rLoop, Ring.rReturn, Ring.incr]; rfl), ?_⟩
    iterate 2 refine ⟨trivial, _, (by
      simp [Conn.step, inRing, Ring.step, Ring.wStep, Ring.rWaited, Ring.wReturn]; rfl), ?_⟩
    iterate 10 refine ⟨trivial, _, (by
      simp [Conn.step, messageStep, readN, inRing, Ring.step, Ring.rStep, Ring.rLoop, Ring.rReturn, Ring.incr]; rfl), ?_⟩
    refine ⟨trivial, _, (by simp [Conn.step, messageStep]; rfl), ?_⟩
    refine ⟨rfl, ⟨rfl, rfl, rfl, rfl, rfl, by show 8 < 12; omega, rfl, fun j hj => ?_, _, rfl⟩⟩
    show (if j = 7 then _ else _) = _
    repeat rw [if_neg (by omega)]
    rfl
  obtain ⟨s, h1, h2, h3⟩ := h.run
  obtain ⟨as, s', h4, h5, h6, h7, h8⟩ := zeroFrames_run k (by show 12 + 4 * k < M + 16; simp only at hN; omega) h3
  refine ⟨staleWake ++ as, s', by rw [Conn.run_append, h1]; exact h4, by rw [h5]; exact h2, ?_, h6, ?_⟩
  · have e : (staleWake.filter (·.isRead)).length = 1 := rfl
    unfold reads at h8 ⊢
    rw [List.filter_append, List.length_append, e, h8]
  · unfold messageSteps at h7 ⊢
    rw [List.filter_append, List.length_append, h7]
    omega

/-- The full claim is false at the sizes of the code, and at all but small ones: woken for nothing, `messageLoop` goes round the
ring buffer and takes the cells for frames. -/
theorem C86_fails {P : Params} (hN : 100 ≤ P.ring) (hP : 8 ≤ P.buf) : ¬C86_statement P (fun _ _ => True) := by
  intro h
  obtain ⟨as, s, h1, h2, h3, h4, h5⟩ := C86_unbounded (k := 21) (by omega) hP
  have := h _ .init as s (fun _ _ => trivial) h1 h4
  have e : (Conn.init P).ring.got.length = 0 := rfl
  rw [h2, h3, e] at this
  omega

example : ¬C86_statement actual (fun _ _ => True) := C86_fails (by decide) (by decide)

/-- Non-trivial instance of `C86_partial`: a call is made and answered, its reply of 8 bytes coming in two pieces. -/
example : ∃ as s, Conn.run small as (Conn.init small) = some s ∧ (∀ x ∈ connTrace small as (Conn.init small), InTimeConn small x.1 x.2) ∧
    s.crashed = false ∧ s.received.length = 8 ∧ reads as = 2 ∧ s.frames.length = 1 ∧ 20 ≤ messageSteps as ∧ 10 ≤ readSteps as := by
  let sch := callDo 0 ++ [.read [0, 0, 0, 4]] ++ List.replicate 8 (.ring .w) ++ [.readNext, .read [0, 0, 0, 1]] ++
    List.replicate 8 (.ring .w) ++ [.readNext, .message] ++
    List.replicate 8 (.ring .r) ++ [.message] ++ List.replicate 8 (.ring .r) ++ List.replicate 7 .message ++ [.call 0]
  have h : ((Conn.run small sch (Conn.init small)).map fun s => (s.crashed, s.received.length, s.frames.length)) =
    some (false, 8, 1) := by decide +kernel
  have ht : ∀ x ∈ connTrace small sch (Conn.init small), InTimeConn small x.1 x.2 := by decide +kernel
  obtain ⟨s, h1, h2⟩ := Option.map_eq_some_iff.1 h
  simp only [Prod.mk.injEq] at h2
  exact ⟨sch, s, h1, ht, h2.1, h2.2.1, by decide +kernel, h2.2.2, by decide +kernel, by decide +kernel⟩

end Kafka.Props
