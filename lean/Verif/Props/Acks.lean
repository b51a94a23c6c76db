import Verif.Props.Calls
import Verif.Props.EndToEnd
import Verif.Conn.Realise

/-!
Property C80: a method returns when the broker has done what the protocol asks of it, which for a `Produce` request that
asks for no acknowledgement is not to answer.
-/
set_option linter.unusedSimpArgs false

namespace Kafka.Props

open Conn

/-! ## C80: requests without a reply -/

/-- Whether the protocol has a reply to the request: to all but `Produce` with `acks` = 0. -/
def hasReply (a : Api) (req : a.req.T) : Bool :=
  match a, req with
  | .Produce, req => req.Acks != 0
  | _, _ => true

/-- No frame with the id of the call `c` is ever received. -/
def NotAnswered (st : Nat → Conn.State) (c : Nat) : Prop :=
  ∀ m, ∀ p ∈ splitStream (st m).received, ¬Wire.int32 ((st m).calls c).id <+: p

/-- The full claim: in an infinite execution as in C65: when a call of a method has begun to write its request, and the
broker answers it if the protocol has a reply to it, and does not if it has none, the call returns. -/
def C80_statement (P : Params) (at' : (Nat → Conn.State) → (Nat → Option Act) → Nat → (a : Api) → a.req.T → Prop) : Prop :=
  ∀ st act, Exec P st act → Fair P st act → (∀ m, (st m).crashed = false) → (∀ m k, (st m).closers k = .absent) →
    Apart P st → Takes st act →
    ∀ n c (b : Broker) (a : Api) (req : a.req.T), ((st n).calls c).job = brokerJob b a req → at' st act n a req →
      ((st n).calls c).sent ≠ [] → (if hasReply a req then IsAnswered st n c else NotAnswered st c) →
      ∃ m o, n ≤ m ∧ ((st m).calls c).pc = .done o

/-- It holds for the requests that have a reply, under the conditions of C65.  Missing: `Produce` with `acks` = 0, which
never returns (`C80_never`), and the other executions of C65. -/
theorem C80_partial {P : Params} (hN : 2 ≤ P.ring) (hP : 4 ≤ P.buf) : C80_statement P (fun st act n a req =>
    hasReply a req = true ∧ Steady P st act ∧ ∀ k c, n ≤ k → (st k).ring.rpc = .waitSend → ((st k).calls c).pc = .recv →
      ∃ m data, k ≤ m ∧ act m = some (.read data) ∧ 2 ≤ data.length) := by
  intro st act h1 h2 h3 h4 h5 h6 n c b a req _ hat hs ha
  rw [if_pos hat.1] at ha
  obtain ⟨m, hm, hr⟩ := C65_partial hN hP st act h1 h2 h3 h4 h5 h6 n c hat.2 hs ha
  rcases hr with ⟨d, hd, _⟩ | ⟨e, he, _⟩
  · exact ⟨m, _, hm, hd⟩
  · exact ⟨m, _, hm, he⟩

/-- A call to which no frame answers never returns, in the schedules of C25, unless the network refuses its request: from
some moment on it waits for ever. -/
theorem C80_never {P : Params} (hN : 2 ≤ P.ring) (hP : 4 ≤ P.buf) {st : Nat → Conn.State} {act : Nat → Option Act}
    (h : Steady P st act) (ht : Takes st act) {n c : Nat} (hc : ((st n).calls c).pc ≠ .absent) (hu : NotAnswered st c) :
    (∃ m e, n ≤ m ∧ ((st m).calls c).pc = .done (.flushErr e)) ∨ ∃ k, n ≤ k ∧ ∀ m, k ≤ m → ((st m).calls c).pc = .recv := by
  have hno : ∀ m d, ((st m).calls c).pc ≠ .done (.reply d) := fun m d hd => by
    obtain ⟨f, hf, hid, _⟩ := (h.exec.reach m).frames.done c d hd
    exact hu m f ((C37_partial hN hP _ (h.reach m)).subset hf) hid
  obtain ⟨k, hk, hr | ⟨o, ho⟩⟩ := C61_proceeds hP h.exec h.fair h.crashed ht hc
  · exact .inr ⟨k, hk, fun m hm => (h.waits hr (fun ⟨m, d, _, hd⟩ => hno m d hd) m hm).1⟩
  · cases o with
    | flushErr e => exact .inl ⟨k, e, hk, ho⟩
    | reply d => exact absurd ho (hno k d)

/-! ### A connection on which nothing happens -/

/-- `messageLoop` waits in `ReadN` and `readLoop` for the network, on an open connection. -/
structure Idle (s : Conn.State) : Prop where
  crashed : s.crashed = false
  lpc : s.lpc = .read
  rawClosed : s.rawClosed = false
  mpc : s.mpc = .inHead
  open' : s.ring.closed = false
  rpc : s.ring.rpc = .waitSend
  wpc : s.ring.wpc = .idle

/-- The two loops come to wait. -/
theorem Calm.idle {P : Params} (hP : 4 ≤ P.buf) {s : Conn.State} (hr : Conn.Reach P Conn.Any s) (h : Conn.Calm P s) :
    ∃ s', Leads P s s' ∧ Idle s' ∧ s'.calls = s.calls ∧ s'.closers = s.closers ∧ s'.count = s.count ∧
      s'.received = s.received := by
  have hb := hr.frames.buf
  have hcl := hr.ringOpen h.cancelled
  have heq : s.ring.start = s.ring.next := by
    have q := h.quiet
    have e1 := h.empty
    rw [Ring.queue, List.drop_eq_nil_iff] at e1
    have e2 := q.fifo.pre.length_le
    have e3 := q.pos.wpub (by rw [q.wpc]; rfl)
    have e4 := q.pos.rrel (by rw [q.rpc]; rfl)
    rw [q.pos.start, q.pos.next, e3, e4]
    congr 1; omega
  have hst : Ring.step P.ring (.callR s.buf (min 4 s.buf.length)) s.ring =
      some { s.ring with rpc := .load1, rdst := s.buf, rn := 4, rorig := s.buf } := by
    rw [Nat.min_eq_left (by omega)]
    simp [Ring.step, h.quiet.rpc]
    omega
  refine Leads.next .message (by
    rw [step_message h.crashed]
    simp only [messageStep, h.mpc, h.cancelled, readN]
    simp only [show (4 : Int).toNat = 4 from rfl, hst]
    rfl) ?_
  iterate 5 refine Leads.next (.ring .r) (by
    simp [Conn.step, inRing, Ring.step, Ring.rStep, Ring.rLoop, h.crashed, heq, h.quiet.rset]; rfl) ?_
  exact ⟨_, .refl _, ⟨rfl, h.lpc, h.rawClosed, rfl, hcl, rfl, h.quiet.wpc⟩, rfl, rfl, rfl, rfl⟩

/-- Then nothing happens without the network, if the calls have returned or wait for a reply. -/
theorem Idle.stuck {P : Params} {s : Conn.State} (h : Idle s)
    (hc : ∀ c, (s.calls c).pc = .absent ∨ (∃ o, (s.calls c).pc = .done o) ∨ (s.calls c).pc = .recv ∧ (s.calls c).chan = none)
    (hk : ∀ k, s.closers k = .absent) (p : Proc) : ¬CanGo P s p := by
  cases p with
  | message =>
    rintro ⟨a, ha, hs⟩
    obtain ⟨s', hs⟩ := Option.isSome_iff_exists.1 hs
    have ht := step_trans hs
    cases ht <;> simp_all [Act.ofMessage, h.mpc]
    case ring a r hin hst => exact absurd hst (ring_stopped h.wpc h.rpc h.open' hin)
    all_goals simp_all [full, h.rpc]
  | read =>
    rintro ⟨_, hs⟩
    rw [h.rawClosed] at hs
    exact absurd (hs h.lpc) (by decide)
  | call c =>
    rintro (hs | ⟨_, e, hs⟩) <;> obtain ⟨s', hs⟩ := Option.isSome_iff_exists.1 hs <;> have ht := step_trans hs <;>
      rcases hc c with hp | ⟨o, hp⟩ | ⟨hp, hch⟩ <;> cases ht <;> simp_all
  | close k => exact fun hp => hp.1 (hk k)

/-- Nothing for ever. -/
theorem Idle.exec {P : Params} {s : Conn.State} (hr : Conn.Reach P Conn.Any s) (hs : ∀ p, ¬CanGo P s p) :
    Exec P (fun _ => s) (fun _ => none) ∧ Fair P (fun _ => s) (fun _ => none) :=
  ⟨⟨hr, nofun, fun _ _ => rfl⟩, fun p hp => absurd (hp 0).choose_spec.2 (hs p)⟩

/-- A broker on which `Produce` has been negotiated at version 0. -/
def producing : Broker := { apiVersion := { Produce := 0 }, config := {} }

/-- A request that asks for no acknowledgement. -/
def unacknowledged : Msg.ProduceRequest := { Acks := 0 }

/-- The first call on a connection. -/
theorem first_call {P : Params} (hN : 2 ≤ P.ring) (job : Job) (hf : job.frame 1 ≠ []) :
    ∃ s, Leads P (Conn.init P) s ∧ Conn.Calm P s ∧ (s.calls 0).pc = .recv ∧ (s.calls 0).chan = none ∧ (s.calls 0).job = job ∧
      (s.calls 0).sent = job.frame 1 ∧ (∀ c, c ≠ 0 → (s.calls c).pc = .absent) ∧ (∀ k, s.closers k = .absent) ∧ s.count = 1 ∧
      s.received = [] := by
  have hf' : 0 < (job.frame 1).length := List.length_pos_iff.2 hf
  refine Leads.next (.start 0 job) (by simp [Conn.step, Conn.init]; rfl) ?_
  iterate 6 refine Leads.next (.call 0) (by simp [Conn.step, callStep, State.set]; rfl) ?_
  refine Leads.next (.write 0 (job.frame 1).length) (by simp [Conn.step, callStep, State.set, hf']; rfl) ?_
  refine Leads.next (.call 0) (by simp [Conn.step, callStep, State.set]; rfl) ?_
  refine Leads.next (.call 0) (by simp [Conn.step, callStep, State.set]; rfl) ?_
  refine ⟨_, .refl _, ⟨rfl, rfl, rfl, rfl, rfl, rfl, rfl, rfl, Ring.Quiet.init hN, rfl⟩, ?_, ?_, ?_, ?_, ?_, fun _ => rfl, ?_, rfl⟩ <;>
    simp +contextual [upd, State.set]

/-- The full claim is false, whatever the sizes: `Do` waits for a reply to a `Produce` request with `acks` = 0 too. -/
theorem C80_fails {P : Params} (hN : 2 ≤ P.ring) (hP : 4 ≤ P.buf) : ¬C80_statement P (fun _ _ _ _ _ => True) := by
  intro hst
  have hne : (brokerJob producing .Produce unacknowledged).frame 1 ≠ [] := by decide +kernel
  obtain ⟨s, l, hcalm, e1, e2, e3, e4, e5, e6, e7, e8⟩ := first_call hN (brokerJob producing .Produce unacknowledged) hne
  obtain ⟨s', l', hi, h1, h2, h3, h4⟩ := Calm.idle hP (l.reach .init) hcalm
  rw [← h1] at e1 e2 e3 e4 e5
  rw [← h2] at e6
  rw [← h3] at e7
  rw [← h4] at e8
  have hcl : ∀ c, (s'.calls c).pc = .absent ∨ (∃ o, (s'.calls c).pc = .done o) ∨
      (s'.calls c).pc = .recv ∧ (s'.calls c).chan = none := fun c => by
    by_cases hc : c = 0
    · subst hc; exact .inr (.inr ⟨e1, e2⟩)
    · exact .inl (e5 c hc)
  obtain ⟨g1, g2⟩ := Idle.exec ((l.trans l').reach .init) (hi.stuck (P := P) hcl e6)
  obtain ⟨m, o, _, ho⟩ := hst _ _ g1 g2 (fun _ => hi.crashed) (fun _ => e6) (.of_count g1 fun _ => by rw [e7]; decide)
    (fun _ c rest hp _ => by rcases hcl c with h | ⟨o, h⟩ | ⟨h, _⟩ <;> rw [h] at hp <;> cases hp)
    0 0 producing .Produce unacknowledged e3 trivial (by rw [e4]; exact hne)
    (by rw [if_neg (by decide)]; intro _ p hp; rw [e8, splitStream.eq_def] at hp; cases hp)
  rw [e1] at ho
  cases ho

/-! ### There are such executions -/

/-- A call of a method that sends its request. -/
def callOf (b : Broker) (a : Api) (req : a.req.T) : List Act :=
  [.start 0 (brokerJob b a req)] ++ List.replicate 6 (.call 0) ++ [.write 0 (written b a req 1).length] ++
    List.replicate 2 (.call 0)

/-- The peer sends a frame with its id, which has no error code. -/
def heartbeatAnswered : List Act :=
  callOf (beating 0) .Heartbeat ({} : Msg.HeartbeatRequest) ++ deliver [0, 0, 0, 4, 0, 0, 0, 1] ++ fetch ++
    List.replicate 6 .message ++ [.call 0, .message] ++ List.replicate 5 (.ring .r)

/-- Non-trivial instance of `C80_partial`: a heartbeat is sent and answered. -/
theorem acks_example : ∃ st act, Steady small st act ∧ Takes st act ∧ ∃ n,
    ((st n).calls 0).job = brokerJob (beating 0) .Heartbeat ({} : Msg.HeartbeatRequest) ∧ ((st n).calls 0).sent ≠ [] ∧
    (st n).received = [] ∧ IsAnswered st n 0 ∧
    ∀ k c, n ≤ k → (st k).ring.rpc = .waitSend → ((st k).calls c).pc = .recv →
      ∃ m data, k ≤ m ∧ act m = some (.read data) ∧ 2 ≤ data.length := by
  obtain ⟨st, act, h1, h2, h3⟩ := steady_of_check (as := heartbeatAnswered) (by decide +kernel)
    (fun s hs => by cases hs; exact fun _ => rfl) (fun s hs => by cases hs; exact fun _ => rfl) (by decide +kernel)
  have hlen : heartbeatAnswered.length = 56 := by decide +kernel
  have hmin : ∀ j, Conn.run small (heartbeatAnswered.take (min j 56)) (Conn.init small) = some (st j) := fun j => by
    rw [← h2 j]
    rcases Nat.le_total j 56 with hj | hj
    · rw [Nat.min_eq_left hj]
    · rw [Nat.min_eq_right hj, List.take_of_length_le (by omega), List.take_of_length_le (by omega)]
  have habs : ∀ k c, ((st k).calls (c + 1)).pc = .absent := fun k c => by
    refine Classical.byContradiction fun hx => ?_
    have h4 := h1.exec.keep (I := fun s => (s.calls (c + 1)).pc ≠ .absent) (n := k) (fun m _ a _ ht hi => by
      generalize st (m + 1) = s' at ht
      cases ht <;> simp only [State.set] <;> grind) hx (max k 56) (Nat.le_max_left _ _)
    have h5 := h2 (max k 56)
    rw [List.take_of_length_le (by omega)] at h5
    refine h4 ?_
    generalize st (max k 56) = s at h5
    cases h5; rfl
  have h11 : ((Conn.run small (heartbeatAnswered.take 10) (Conn.init small)).map sentAll) = some true := by decide +kernel
  have h12 : ((Conn.run small (heartbeatAnswered.take 11) (Conn.init small)).map fun s =>
      decide (s.received = [0, 0, 0, 4, 0, 0, 0, 1])) = some true := by decide +kernel
  rw [h2] at h11 h12
  have h11 := Option.some.inj h11
  obtain ⟨g1, g2⟩ := answered_of (m := 11) (by omega) h11 (of_decide_eq_true (Option.some.inj h12))
  refine ⟨st, act, h1, takes_of_run (L := 56) h1.exec (fun m hm c rest hp => ?_), 10, ?_, g1, ?_, g2, fun k c _ hw hc => ?_⟩
  · cases c with
    | zero =>
      have := h2 m
      rw [List.take_of_length_le (by omega)] at this
      generalize st m = s at this hp
      cases this
      cases hp
    | succ c => rw [habs] at hp; cases hp
  · have := h2 10
    generalize st 10 = s at this
    cases this
    rfl
  · simp only [sentAll, Bool.and_eq_true, decide_eq_true_eq] at h11
    exact h11.2
  · exfalso
    cases c with
    | zero =>
      have hall : ∀ j : Fin 57, ((Conn.run small (heartbeatAnswered.take j) (Conn.init small)).map fun s =>
          decide (s.ring.rpc = .waitSend) && ((s.calls 0).pc matches .recv)) = some false := by decide +kernel
      have h6 := hall ⟨min k 56, by omega⟩
      rw [hmin k] at h6
      simp [hw, hc] at h6
    | succ c => rw [habs] at hc; cases hc

example : hasReply .Heartbeat ({} : Msg.HeartbeatRequest) = true ∧ hasReply .Produce ({ Acks := 1 } : Msg.ProduceRequest) = true ∧
    hasReply .Produce unacknowledged = false := ⟨rfl, rfl, rfl⟩

/-- A `Produce` with `acks` = 0 is sent, and the loops wait. -/
def produceWaits : List Act := callOf producing .Produce unacknowledged ++ [.message] ++ List.replicate 5 (.ring .r)

/-- Non-trivial instance of `C80_never`: a `Produce` with `acks` = 0 is sent, and nothing is received. -/
example : ∃ st act, Steady small st act ∧ Takes st act ∧ NotAnswered st 0 ∧ ∃ n,
    ((st n).calls 0).job = brokerJob producing .Produce unacknowledged ∧ ((st n).calls 0).sent ≠ [] ∧
    ((st n).calls 0).pc = .recv := by
  obtain ⟨st, act, h1, h2, h3⟩ := steady_of_check
    (as := produceWaits) (by decide +kernel)
    (fun s hs => by cases hs; exact fun _ => rfl) (fun s hs => by cases hs; exact fun _ => rfl) (by decide +kernel)
  have hlen : produceWaits.length = 16 := by decide +kernel
  have hend : ∀ m, 16 ≤ m → Conn.run small produceWaits
      (Conn.init small) = some (st m) := fun m hm => by
    have := h2 m
    rwa [List.take_of_length_le (by omega)] at this
  have hrec : ∀ m, (st m).received = [] := fun m => by
    have h4 := h1.exec.keep (I := fun s => (st m).received.length ≤ s.received.length) (n := m) (fun j _ a _ ht hi =>
      Nat.le_trans hi ht.received.length_le) (Nat.le_refl _) (max m 16) (Nat.le_max_left _ _)
    have h5 := hend (max m 16) (Nat.le_max_right _ _)
    generalize st (max m 16) = s at h4 h5
    cases h5
    exact List.length_eq_zero_iff.1 (Nat.le_zero.1 h4)
  refine ⟨st, act, h1, takes_of_run (L := 16) h1.exec (fun m hm c rest hp => ?_), fun m p hp => ?_, 16, ?_⟩
  · have := hend m hm
    generalize st m = s at this hp
    cases this
    cases c with
    | zero => cases hp
    | succ c => cases hp
  · rw [hrec, splitStream.eq_def] at hp; cases hp
  · have := hend 16 (Nat.le_refl _)
    generalize st 16 = s at this
    cases this
    exact ⟨rfl, by decide +kernel, rfl⟩

end Kafka.Props
