import Verif.Conn.Dispatch
import Verif.Props.Conn
/-!
Property C51: a reply that has arrived is returned.
-/
set_option linter.unusedSimpArgs false

namespace Kafka.Props

open Conn

/-- The frames received and not yet read by `messageLoop`. -/
def pending (s : Conn.State) : List (List Byte) := (splitStream s.received).drop s.frames.length

/-- The full claim: when a frame with the id of a waiting call has been received and not yet been read, the
call can go on to return such a frame, without any more bytes from the peer and without `Close`. -/
def C51_statement (P : Params) (ok : Conn.State → Act → Prop) (at' : Conn.State → Prop) : Prop :=
  ∀ s, Conn.Reach P ok s → at' s → s.crashed = false → (∀ k, s.closers k = .absent) →
    (∀ c d, (s.calls c).job.panics d = false) → (∀ f ∈ pending s, f.length ≤ P.buf) →
    ∀ c, (s.calls c).pc = .recv → s.requests (s.calls c).id = some c →
    ∀ p ∈ pending s, Wire.int32 (s.calls c).id <+: p →
    ∃ s' f d, Leads P s s' ∧ s'.received = s.received ∧ s'.closers = s.closers ∧
      (s'.calls c).pc = .done (.reply d) ∧ f ∈ pending s ∧ Wire.int32 (s.calls c).id <+: f ∧ Given P.buf f d

theorem ring_open {N : Nat} {a : Ring.Action} {r r' : Ring.State} (ha : a ≠ .close)
    (h : Ring.step N a r = some r') : r'.closed = r.closed := by
  cases a with
  | w => exact (Ring.wStep_rCost h).2
  | r => exact (Ring.rStep_wCost h).2
  | handR => exact (Ring.hand_cost (.inl rfl) h).2.2
  | handW => exact (Ring.hand_cost (.inr rfl) h).2.2
  | close => exact absurd rfl ha
  | callW | callR =>
    simp only [Ring.step] at h
    split at h
    · simp only [Option.some.injEq] at h; subst h; rfl
    · cases h

theorem _root_.Kafka.Conn.Reach.any {P : Params} {ok : Conn.State → Act → Prop} {s : Conn.State} (h : Conn.Reach P ok s) :
    Conn.Reach P Conn.Any s := by
  induction h with
  | init => exact .init
  | step a _ _ hst ih => exact .step a ih trivial hst

/-- While nobody has called `Close`, nothing is closed. -/
theorem open_inv {P : Params} {ok : Conn.State → Act → Prop} {s : Conn.State} (h : Conn.Reach P ok s) :
    (∀ k, s.closers k = .absent) → s.ring.closed = false ∧ s.cancelled = false ∧ s.rawClosed = false := by
  refine h.inv (I := fun s => (∀ k, s.closers k = .absent) → s.ring.closed = false ∧ s.cancelled = false ∧ s.rawClosed = false)
    (fun _ => ⟨rfl, rfl, rfl⟩) ?_
  intro s s' a hr hi hok ht
  clear hok
  cases ht
  case ring a r ha hst => intro h; rw [← ring_open (by rintro rfl; cases ha) hst] at hi; exact hi h
  case head r _ _ hst => intro h; rw [← ring_open (by simp) hst] at hi; exact hi h
  case body r _ _ _ hst => intro h; rw [← ring_open (by simp) hst] at hi; exact hi h
  case read data r _ _ _ hst => intro h; rw [← ring_open (by simp) hst] at hi; exact hi h
  case closing k _ => intro h; have := h k; simp at this
  case cancel k _ => intro h; have := h k; simp at this
  case rbClose k r _ _ => intro h; have := h k; simp at this
  case rawClose k _ => intro h; have := h k; simp at this
  case waitMessage k _ _ => intro h; have := h k; simp at this
  case waitRead k _ _ => intro h; have := h k; simp at this
  all_goals exact hi

/-- `messageLoop` is between two frames, `readLoop` is not inside `WriteN`, and no call holds `readLock`. -/
structure Between (s : Conn.State) : Prop where
  mpc : s.mpc = .top
  wpc : s.ring.wpc = .idle
  readLock : s.readLock = none

/-- It holds in the schedules of C25 when `messageLoop` is between two frames and what has been received is in the
ring buffer, however many other frames are there before the reply: short ones, unknown ones, replies to other calls.
Missing for the full claim: states in which `messageLoop` is inside `ReadN` when the bytes arrive, where the claim
fails. -/
theorem C51_partial {P : Params} (hN : 2 ≤ P.ring) (hP : 4 ≤ P.buf) : C51_statement P (PacedConn P) Between := by
  intro s h hb hc hcl hok hl c hpc hreq p hp hid
  obtain ⟨o1, o2, o3⟩ := open_inv h hcl
  have hst := h.stream hP
  have hring : Ring.Reach P.ring (Ring.Paced P.ring) s.ring := h.ring (fun _ _ h => h) (fun r a ha => by
    cases a <;> simp [inRing] at ha <;> trivial)
  obtain ⟨hidle, hparsed⟩ := hst.out (by simp [hb.mpc])
  have hpair := hring.pair o1
  have hfifo := hring.fifo hN (fun _ _ h => h)
  have hcalls := hring.calls
  have hq : Ring.Quiet P.ring s.ring := ⟨hring.pos (by omega), hfifo, hcalls, hb.wpc, hidle, by
    have := hpair.rset; rw [hidle] at this; simpa using this, by
    have := hpair.wset; rw [hb.wpc] at this; simpa using this⟩
  have hput : s.ring.put = s.received := by
    have := hcalls.given
    rw [hb.wpc, hst.given] at this
    simp only [Ring.WPc.wrote] at this
    rw [this, List.drop_eq_nil_of_le (by rw [List.length_take]; omega), List.append_nil]
  have hgot : s.ring.got = s.ring.taken := by
    have := hcalls.taken
    rw [hidle] at this
    simpa [Ring.RPc.read] using this
  have hsplit : splitStream (Ring.queue s.ring) = pending s := by
    unfold pending
    have h1 : s.received = s.ring.taken ++ Ring.queue s.ring := by
      unfold Ring.queue
      rw [← hput, ← hgot]
      exact (List.prefix_iff_eq_append.1 hfifo.pre).symm
    rw [h1, hparsed.split, List.drop_left]
  exact Ready.all hN hP (pending s) hsplit h.any ⟨hc, hb.mpc, o2, hb.readLock, hq, rfl⟩ hok hl
    hpc hreq hp hid

/-- Two frames arrive before the reply: an unknown one and one too short for a header. -/
def backlog : List Act :=
  callDo 0 ++ deliver [0, 0, 0, 4, 0, 0, 0, 9] ++ [.read [0, 0, 0, 1, 7]] ++ List.replicate 9 (.ring .w) ++ [.readNext] ++
  deliver [0, 0, 0, 4, 0, 0, 0, 1]

/-- Non-trivial instance: the hypotheses hold after these steps. -/
example : ∃ s, Conn.Reach ⟨64, 8⟩ (PacedConn ⟨64, 8⟩) s ∧ Between s ∧ s.crashed = false ∧ (s.calls 0).pc = .recv ∧
    s.requests (s.calls 0).id = some 0 ∧ (s.calls 0).id = 1 ∧ pending s = [[0, 0, 0, 9], [7], [0, 0, 0, 1]] := by
  have h : ((Conn.run ⟨64, 8⟩ backlog (Conn.init ⟨64, 8⟩)).map fun s =>
      (s.mpc matches .top) && (s.ring.wpc matches .idle) && s.readLock.isNone && !s.crashed &&
        ((s.calls 0).pc matches .recv)) = some true := by decide +kernel
  have h' : ((Conn.run ⟨64, 8⟩ backlog (Conn.init ⟨64, 8⟩)).map fun s =>
      (s.requests (s.calls 0).id, (s.calls 0).id, s.received, s.frames)) =
      some (some 0, 1, [0, 0, 0, 4, 0, 0, 0, 9, 0, 0, 0, 1, 7, 0, 0, 0, 4, 0, 0, 0, 1], []) := by decide +kernel
  have ht : ∀ x ∈ connTrace ⟨64, 8⟩ backlog (Conn.init ⟨64, 8⟩), PacedConn ⟨64, 8⟩ x.1 x.2 := by decide +kernel
  obtain ⟨s, h1, h2⟩ := Option.map_eq_some_iff.1 h
  rw [h1] at h'
  simp only [Option.map_some, Option.some.injEq, Prod.mk.injEq] at h'
  simp only [Bool.and_eq_true, Bool.not_eq_true'] at h2
  obtain ⟨⟨⟨⟨a1, a2⟩, a3⟩, a4⟩, a5⟩ := h2
  obtain ⟨a6, a7, a8, a9⟩ := h'
  refine ⟨s, connReach_trace backlog .init ht h1, ⟨?_, ?_, by simpa using a3⟩, a4, ?_, a6, a7, ?_⟩
  · split at a1 <;> simp_all
  · split at a2 <;> simp_all
  · split at a5 <;> simp_all
  · unfold pending
    rw [a8, a9]
    refine (splitStream_frame 4 [0, 0, 0, 9] _ (by decide)).trans (congrArg _ ?_)
    refine (splitStream_frame 1 [7] _ (by decide)).trans (congrArg _ ?_)
    exact (splitStream_frame 4 [0, 0, 0, 1] [] (by decide)).trans (by rw [splitStream.eq_def])

/-- When the bytes of a frame arrive one by one, a waiting `messageLoop` is not woken. -/
def trickle : List Act :=
  callDo 0 ++ [.message, .ring .r, .ring .r, .ring .r, .ring .r, .ring .r] ++
  [0, 0, 0, 4, 0, 0, 0, 1].flatMap fun b => [.read [b], .ring .w, .ring .w, .ring .w, .ring .w, .readNext]

/-- `messageLoop` waits in `ReadN`; nothing is going to wake it. -/
structure Deaf (s : Conn.State) : Prop where
  mpc : s.mpc = .inHead
  closed : s.ring.closed = false
  rpc : s.ring.rpc = .waitSend
  wpc : s.ring.wpc = .idle ∨ s.ring.wn = 0 ∧ (s.ring.wpc = .load1 ∨ s.ring.wpc = .load2 ∨ s.ring.wpc = .fstore)
  pc : (s.calls 0).pc = .recv
  chan : (s.calls 0).chan = none

/-- The peer sends more, or `Close` is called. -/
def Helped (n : Nat) (s : Conn.State) : Prop := n < s.received.length ∨ ∃ k, s.closers k ≠ .absent

theorem Deaf.trans {P : Params} {s s' : Conn.State} {a : Act} {n : Nat} (hn : n ≤ s.received.length) (h : Helped n s ∨ Deaf s)
    (ht : Trans P s a s') : n ≤ s'.received.length ∧ (Helped n s' ∨ Deaf s') := by
  refine ⟨?_, ?_⟩
  · cases ht <;> first | exact hn | (simp; omega)
  rcases h with h | h
  · left
    rcases h with h | ⟨k, h⟩
    · left
      cases ht <;> first | exact h | (simp; omega)
    · right
      cases ht <;> first
        | exact ⟨k, h⟩
        | (rename_i j _; exact ⟨j, by simp⟩)
        | (rename_i j _ _; exact ⟨j, by simp⟩)
        | (rename_i j _ _ _; exact ⟨j, by simp⟩)
  · obtain ⟨h1, h0, h2, h3, h4, h5⟩ := h
    have hset : ∀ {x : Conn.State} {c : Nat} {v : CState}, x.mpc = s.mpc → x.ring = s.ring → x.calls = s.calls →
        (c = 0 → v.pc = .recv ∧ v.chan = none) → Deaf (x.set c v) := by
      intro x c v e1 e2 e3 hv
      refine ⟨e1.trans h1, by simpa [State.set, e2] using h0, by simpa [State.set, e2] using h2,
        by simpa [State.set, e2] using h3, ?_, ?_⟩ <;>
        by_cases hc : c = 0 <;> simp_all [State.set]
      all_goals (rw [if_neg (Ne.symm hc)]; assumption)
    cases ht
    case ring a r ha hst =>
      right
      have : r.closed = false ∧ r.rpc = .waitSend ∧ (r.wpc = .idle ∨ r.wn = 0 ∧ (r.wpc = .load1 ∨ r.wpc = .load2 ∨ r.wpc = .fstore)) := by
        cases a with
        | w =>
          simp only [Ring.step, Ring.wStep] at hst
          rcases h3 with h3 | ⟨h3, h6 | h6 | h6⟩
          · simp [h3] at hst
          · simp only [h6, Option.some.injEq] at hst; subst hst; simp [h0, h2, h3]
          · simp only [h6, Option.some.injEq] at hst; subst hst; simp [Ring.wLoop, h0, h2, h3]
          · simp only [h6, Option.some.injEq] at hst; subst hst; simp [Ring.wReturn, h0, h2, h3]
        | r => simp [Ring.step, Ring.rStep, h2, h0] at hst
        | handR | handW =>
          simp only [Ring.step, h2] at hst
          rcases h3 with h3 | ⟨_, h3 | h3 | h3⟩ <;> simp [h3] at hst
        | close | callW | callR => cases ha
      exact ⟨h1, this.1, this.2.1, this.2.2, h4, h5⟩
    case read data r _ _ _ hst =>
      cases data with
      | cons b t => left; left; simp; omega
      | nil =>
        right
        simp only [Ring.step] at hst
        split at hst
        · simp only [Option.some.injEq] at hst; subst hst
          exact ⟨h1, h0, h2, .inr ⟨rfl, .inl rfl⟩, h4, h5⟩
        · cases hst
    case closing k _ => left; right; exact ⟨k, by simp⟩
    case cancel k _ => left; right; exact ⟨k, by simp⟩
    case rbClose k r _ _ => left; right; exact ⟨k, by simp⟩
    case rawClose k _ => left; right; exact ⟨k, by simp⟩
    case waitMessage k _ _ => left; right; exact ⟨k, by simp⟩
    case waitRead k _ _ => left; right; exact ⟨k, by simp⟩
    all_goals right
    all_goals first
      | exact ⟨h1, h0, h2, h3, h4, h5⟩
      | exact hset rfl rfl rfl (by rintro rfl; simp_all)
      | simp_all

theorem Deaf.run {P : Params} {n : Nat} : ∀ (as : List Act) {s s' : Conn.State}, Conn.run P as s = some s' →
    n ≤ s.received.length → (Helped n s ∨ Deaf s) → n ≤ s'.received.length ∧ (Helped n s' ∨ Deaf s')
  | [], s, s', hr, h1, h2 => by simp only [Conn.run, Option.some.injEq] at hr; subst hr; exact ⟨h1, h2⟩
  | a :: as, s, s', hr, h1, h2 => by
    simp only [Conn.run] at hr
    obtain ⟨s1, h3, h4⟩ := Option.bind_eq_some_iff.1 hr
    have := Deaf.trans h1 h2 (step_trans h3)
    exact Deaf.run as h4 this.1 this.2

/-- The state after the bytes have trickled in. -/
theorem trickle_run {M B : Nat} : ∃ s, Conn.run ⟨M + 16, B + 8⟩ trickle (Conn.init ⟨M + 16, B + 8⟩) = some s ∧
    (s.crashed = false ∧ s.closers = (fun _ => .absent) ∧ (∀ c, (s.calls c).job.panics = fun _ => false) ∧
      s.received = [0, 0, 0, 4, 0, 0, 0, 1] ∧ s.frames = [] ∧ (s.calls 0).id = 1 ∧ s.requests 1 = some 0 ∧ Deaf s) := by
  unfold trickle callDo Conn.init Ring.init sampleJob
  simp only [List.flatMap_cons, List.flatMap_nil, List.replicate, List.cons_append, List.nil_append, List.append_nil]
  have ew : Wire.int32 1 = [0, 0, 0, 1] := by rw [wire_int32]; rfl
  iterate 11 refine run_next (by
    simp [Conn.step, callStep, State.set, upd, ew]; rfl) ?_
  iterate 6 refine run_next (by
    simp [Conn.step, messageStep, readN, inRing, Ring.step, Ring.rStep, Ring.rLoop]; rfl) ?_
  iterate 48 refine run_next (by
    simp [Conn.step, inRing, Ring.step, Ring.wStep, Ring.wLoop, Ring.wReturn, Ring.incr]; rfl) ?_
  exact ⟨_, rfl, rfl, rfl, fun c => by by_cases c = 0 <;> simp [*], rfl, rfl, rfl, rfl, ⟨rfl, rfl, rfl, .inl rfl, rfl, rfl⟩⟩

/-- The claim fails: when `messageLoop` is waiting in `ReadN` for the next frame and the bytes of the reply arrive one
by one, the call never returns, unless the peer sends something more or the connection is closed. -/
theorem C51_fails {P : Params} (hN : 16 ≤ P.ring) (hP : 8 ≤ P.buf) : ¬C51_statement P Conn.Any (fun _ => True) := by
  obtain ⟨N, B⟩ := P
  obtain ⟨M, rfl⟩ := Nat.exists_eq_add_of_le' hN
  obtain ⟨B, rfl⟩ := Nat.exists_eq_add_of_le' hP
  intro h
  obtain ⟨s, hr, h1, h2, h3, h4, h5, h6, h7, h8⟩ := trickle_run (M := M) (B := B)
  have hp : pending s = [[0, 0, 0, 1]] := by
    unfold pending
    rw [h4, h5]
    exact (splitStream_frame 4 [0, 0, 0, 1] [] (by decide)).trans (by rw [splitStream.eq_def])
  have ew : Wire.int32 1 = [0, 0, 0, 1] := by rw [wire_int32]; rfl
  obtain ⟨s', f, d, ⟨as, hl⟩, g1, g2, g3, _⟩ := h s (connReach_of_run hr) trivial h1 (fun k => by rw [h2])
    (fun c d => by rw [h3]) (fun f hf => by rw [hp] at hf; simp at hf; simp [hf]) 0 h8.pc (by rw [h6]; exact h7)
    [0, 0, 0, 1] (by rw [hp]; simp) (by rw [h6, ew]; simp)
  rcases (Deaf.run as hl Nat.le.refl (.inr h8)).2 with (g | ⟨k, g⟩) | g
  · rw [g1] at g; omega
  · rw [g2, h2] at g; exact g rfl
  · rw [g.pc] at g3; cases g3

/-- On a connection on which nothing else is going on, a reply that the peer sends at once is returned: the request is
written, then the call returns a decoder holding the payload of the reply. -/
theorem C51_idle {P : Params} (hN : 2 ≤ P.ring) (hP : 4 ≤ P.buf) {s : Conn.State} (hr : Conn.Reach P Conn.Any s)
    (h : Conn.Calm P s) {c : Nat} (hc : (s.calls c).pc = .absent) (job : Job) {body : List Byte}
    (hlen : body.length + 4 ≤ P.buf) (hroom : body.length + 10 ≤ P.ring) (h31 : body.length + 4 < 2 ^ 31)
    (hok : ∀ d, job.panics d = false) :
    ∃ s' d, Leads P s s' ∧ (s'.calls c).pc = .done (.reply d) ∧ s'.wire = s.wire ++ job.frame (s.id + 1) ∧
      Given P.buf (Wire.int32 (s.id + 1) ++ body) d ∧ Conn.Calm P s' := by
  obtain ⟨s1, l1, h1⟩ := h.ask hc job
  have hl : (Wire.int32 (s.id + 1) ++ body).length = body.length + 4 := by
    rw [List.length_append, wire_int32]; simp [be32]; omega
  obtain ⟨s2, l2, d, h2⟩ := h1.calm.answer hN hP (l1.reach hr) h1.registered h1.pc
    (payload := Wire.int32 (s.id + 1) ++ body) (List.prefix_append _ _) (by omega) (by omega) (by omega)
    (fun d _ => by rw [h1.job]; exact hok d)
  exact ⟨s2, d, l1.trans l2, h2.pc, h2.wire.trans h1.wire, h2.given, h2.calm⟩

/-- Non-trivial instance: at the sizes of the code, a reply of a million bytes to the first call. -/
example : ∃ s' d, Leads actual (Conn.init actual) s' ∧ (s'.calls 0).pc = .done (.reply d) ∧ d.length = 1000004 := by
  obtain ⟨s', d, h1, h2, _, h3, _⟩ := C51_idle (P := actual) (by decide) (by decide) .init (Conn.Calm.init (by decide)) (c := 0)
    rfl sampleJob (body := List.replicate 1000000 7) (by rw [List.length_replicate]; decide)
    (by rw [List.length_replicate]; decide) (by rw [List.length_replicate]; decide) (fun _ => rfl)
  refine ⟨s', d, h1, h2, ?_⟩
  rw [h3.length, List.length_append, List.length_replicate, wire_int32]
  rfl

end Kafka.Props
