import Verif.Props.Timely
import Verif.Props.Crash
import Verif.Props.Close
import Verif.Props.EndToEnd
/-!
What the connection does in all schedules in which each byte of the ring buffer is read in time (see `C25_exact`).
-/
set_option linter.unusedSimpArgs false

namespace Kafka.Props

open Kafka Kafka.Conn Kafka.Protocol

/-- Each byte of the ring buffer is read after it was put there and before its place is used again. -/
def InTimeConn (P : Params) (s : Conn.State) : Act → Prop
  | .ring a => InTime P.ring s.ring a
  | _ => True

instance (P : Params) (s : Conn.State) (a : Act) : Decidable (InTimeConn P s a) := by
  unfold InTimeConn
  split <;> infer_instance

theorem inTimeRing {P : Params} {s : Conn.State} (h : Conn.Reach P (InTimeConn P) s) :
    Ring.Reach P.ring (InTime P.ring) s.ring :=
  h.ring (fun _ _ h => h) (fun r a ha => by
    intro e
    subst e
    simp [inRing] at ha)

theorem inTime_taken {P : Params} (hN : 0 < P.ring) (hP : 4 ≤ P.buf) {s : Conn.State}
    (h : Conn.Reach P (InTimeConn P) s) : s.ring.taken <+: s.received := by
  rw [← (h.stream hP).given]
  exact C25_inTime_partial hN s.ring (inTimeRing h)

/-- The condition is weaker than that of the theorems about `PacedConn`. -/
theorem pacedConn_inTime {P : Params} (hN : 2 ≤ P.ring) {s : Conn.State} (h : Conn.Reach P (PacedConn P) s) :
    Conn.Reach P (InTimeConn P) s := by
  induction h with
  | init => exact .init
  | @step s s' a hr hok hs ih =>
    refine ih.step a ?_ hs
    cases a with
    | ring a =>
      have hring := pacedRing hr
      intro ha hpc
      have hf := hring.fifo hN (fun _ _ h => h)
      have hp := hring.pos (by omega)
      have h1 := hf.room
      have h2 := hp.pub_le
      have h3 := hp.rel_le
      have h4 := hp.rpub_le
      subst ha
      refine ⟨?_, by omega⟩
      cases hres : s.ring.rres with
      | true => exact Nat.lt_of_lt_of_le (hok hres hpc) h2
      | false => exact Nat.lt_of_lt_of_le (hf.rget hpc hres) (by omega)
    | _ => trivial

/-- **C37** in all schedules in which each byte is read in time. -/
theorem C37_inTime_partial {P : Params} (hN : 0 < P.ring) (hP : 4 ≤ P.buf) : C37_statement P (InTimeConn P) := by
  intro s h
  have hst := h.stream hP
  have hpre := inTime_taken hN hP h
  have key : ∀ {bs : List Byte}, Parsed s.frames bs → bs <+: s.received → s.frames <+: splitStream s.received := by
    intro bs hp ⟨t, ht⟩
    rw [← ht, hp.split]
    exact List.prefix_append _ _
  cases hm : s.mpc with
  | inHead =>
    obtain ⟨bs, h1, _, h2⟩ := hst.head hm
    exact key h1 ((List.prefix_append _ _).trans (h2 ▸ hpre))
  | inBody size =>
    obtain ⟨bs, v, h1, _, _, h2⟩ := hst.body size hm
    refine key h1 (List.IsPrefix.trans ?_ (h2 ▸ hpre))
    rw [List.append_assoc]
    exact List.prefix_append _ _
  | _ => exact key (hst.out (by simp [hm])).2 hpre

/-- **C38** in all schedules in which each byte is read in time. -/
theorem C38_inTime_partial {P : Params} (hN : 0 < P.ring) (hP : 4 ≤ P.buf) {s : Conn.State}
    (h : Conn.Reach P (InTimeConn P) s) (hc : s.crashed = true) :
    oversize P.buf s.received = true ∨
    ∃ d c, (s.calls c).job.panics d = true ∧ ReplyTo P.buf (splitStream s.received) d (s.calls c).id := by
  have hpre := C37_inTime_partial hN hP s h
  have hlen : ∀ v : Int32, (Wire.int32 v).length = 4 := fun v => by rw [wire_int32]; rfl
  have hpref : ∀ {s : Conn.State}, Conn.Reach P (InTimeConn P) s → s.ring.taken <+: s.received := by
    intro s h
    exact inTime_taken hN hP h
  have key : ∀ {s : Conn.State} {bs x : List Byte} {v : Int32}, Conn.Reach P (InTimeConn P) s → Parsed s.frames bs →
      (P.buf : Int) < v.toInt → s.ring.taken = bs ++ Wire.int32 v ++ x → P.buf < x.length →
      oversize P.buf s.received = true := by
    intro s bs x v h h1 h2 h3 h4
    obtain ⟨t, ht⟩ := hpref h
    rw [← ht, h3, List.append_assoc, List.append_assoc, Parsed.oversize h1 (frames_le h)]
    exact oversize_long _ _ _ h2 (by rw [List.length_append]; omega)
  cases h with
  | init => cases hc
  | @step s0 _ a hr hok hst =>
    have hc0 : s0.crashed = false := by
      cases hc0 : s0.crashed with
      | false => rfl
      | true => simp [Conn.step, hc0] at hst
    have ht := step_trans hst
    clear hst
    cases ht
    case headCrash hm hi hn =>
      have hb := hr.frames.head hm
      obtain ⟨v, _, e⟩ := headSize_eq (buf := s0.ring.rdst) (by omega)
      rw [hn] at e; cases e
    case bodyCrash size hm hi hlt =>
      have hb := hr.frames.buf
      have hr' := hr.frames.body size hm
      rw [if_pos (by omega)] at hr'
      obtain ⟨bs, v, h1, h2, _, h4⟩ := (hr.stream hP).body size hm
      rw [if_pos hi] at h4
      have := key hr h1 (by omega) h4 (by rw [List.length_take]; omega)
      exact .inl this
    case full hf =>
      have hring := inTimeRing hr
      have hcalls := hring.calls
      have hb := hr.frames.buf
      obtain ⟨size, hm, hs⟩ := hr.full hP hf
      obtain ⟨bs, v, h1, h2, h3, h4⟩ := (hr.stream hP).body size hm
      simp only [Conn.full, Bool.and_eq_true, decide_eq_true_eq] at hf
      have hdata : s0.ring.got.length < s0.ring.put.length := (hok rfl hf.1).1
      have hgl := congrArg List.length hcalls.taken
      have hpl := congrArg List.length hcalls.given
      have hlt := hcalls.rbody (by rw [hf.1]; rfl)
      have hrl := hcalls.rlen
      rw [(hr.stream hP).given, List.length_append] at hpl
      rw [if_neg (by rw [hf.1]; simp), List.append_nil] at h4
      rw [List.length_append, List.length_take, h4, List.length_append, hlen, hf.1] at hgl
      simp only [Ring.RPc.read] at hgl
      obtain ⟨t, ht⟩ := hpref hr
      have htl := congrArg List.length ht
      rw [h4, List.length_append, List.length_append, hlen] at htl
      refine .inl ?_
      show oversize P.buf s0.received = true
      rw [← ht, h4, List.append_assoc, Parsed.oversize h1 (frames_le hr)]
      exact oversize_long _ _ _ (by omega) (by omega)
    case parseCrash size hm hi hle hd =>
      have hz := hr.frames.size size hm
      have hb := hr.frames.buf
      have hb' := hr.frames.length hm hle
      rcases header_start hz.1 hz.2 (raw := s0.ring.rdst) (by omega) with ⟨_, h2⟩ | ⟨h1, resp', h2, h3⟩
      · rw [hd] at h2; cases h2
      · rw [hd] at h3; cases h3
    case decodeCrash d c hm hp =>
      obtain ⟨p, h1, h2⟩ := hr.frames.taken c d (by rw [hm]; rfl)
      exact .inr ⟨d, c, hp, p, hpre.subset h1, h2⟩
    all_goals (simp [State.set, hc0] at hc)

/-- **C54** in all schedules in which each byte is read in time. -/
theorem C54_inTime_partial {P : Params} (hN : 0 < P.ring) (hP : 4 ≤ P.buf) : C54_statement P (InTimeConn P) := by
  intro s h c d hd
  obtain ⟨p, h1, h2, h3, h4, h5, h6⟩ := h.frames.done c d hd
  exact ⟨p, (C37_inTime_partial hN hP s h).subset h1, h2, h3, h4, h5, h6⟩

/-- **C49** in all schedules in which each byte is read in time. -/
theorem C49_inTime_partial {P : Params} (hN : 0 < P.ring) (hP : 4 ≤ P.buf) (hS : P.buf < 2 ^ 62) {s : Conn.State}
    (h : Conn.Reach P (InTimeConn P) s) {b : Broker} {a : Api} {req : a.req.T} {c : Nat} {x : Val} {d : Decoder}
    (ha : Answered b a req c x s) (hv : 0 ≤ version b a) (hflex : flexible a (version b a) = false)
    (hcommit : a = .OffsetCommit → version b a ≠ 1) (hshut : ¬ (a = .ControlledShutdown ∧ version b a = 0))
    (hfit : a.reqLayout.Fits (version b a) req) (hfull : a.reqFull (version b a) req)
    (hx : (Protocol.response a).Valid false (version b a) x) (hd : (s.calls c).pc = .done (.reply d)) :
    (s.calls c).sent = requestFrame a (version b a) (s.calls c).id b.config.clientID (a.reqVal req) ∧
    ∃ r d', (b.call a req).decode d = .ok r d' ∧ d'.offset = d'.length ∧
      (Protocol.response a).shows (version b a) x (a.respVal r) = true := by
  obtain ⟨p, hp, h1, h2, h3, h4, h5⟩ := h.frames.done c d hd
  have hsent := (h.wires.flushed c (by rw [hd]; rfl)).2
  rw [CState.frame, ha.job] at hsent
  refine ⟨hsent.trans (C47_partial b a req _ hv hfit hflex hcommit hshut hfull).2, ?_⟩
  have hin : p ∈ splitStream s.received := (C37_inTime_partial hN hP s h).subset hp
  have e := ha.answer p hin h1
  subst e
  exact C48_partial b a req _ x d hv hflex hx ⟨h2, h3, h4, by omega⟩

/-- Whether all steps of a schedule satisfy `InTimeConn`. -/
def allInTimeConn (P : Params) : List Act → Conn.State → Bool
  | [], _ => true
  | a :: as, s => decide (InTimeConn P s a) && match Conn.step P a s with
    | some s => allInTimeConn P as s
    | none => true

theorem reach_inTimeConn {P : Params} : ∀ (as : List Act) {s s' : Conn.State}, Conn.Reach P (InTimeConn P) s →
    allInTimeConn P as s = true → Conn.run P as s = some s' → Conn.Reach P (InTimeConn P) s'
  | [], _, _, h, _, h2 => by cases h2; exact h
  | a :: as, s, s', h, h1, h2 => by
    simp only [Conn.run] at h2
    obtain ⟨s1, h3, h4⟩ := Option.bind_eq_some_iff.1 h2
    simp only [allInTimeConn, h3, Bool.and_eq_true, decide_eq_true_eq] at h1
    exact reach_inTimeConn as (h.step a h1.1 h3) h1.2 h4

/-- A call is waiting for its reply, of which two bytes arrive and wake `messageLoop`; two more arrive, and `messageLoop` reads
them before `readLoop` has published them. -/
def aheadInTime : List Act :=
  callDo 0 ++ [.message, .ring .r, .ring .r, .ring .r, .ring .r, .ring .r, .read [0, 0]] ++ List.replicate 6 (.ring .w) ++
  [.ring .handR, .readNext, .read [0, 4]] ++ List.replicate 4 (.ring .w) ++ List.replicate 6 (.ring .r) ++
  List.replicate 2 (.ring .w) ++ [.readNext, .read [0, 0, 0, 1]] ++ List.replicate 8 (.ring .w) ++ [.readNext, .message] ++
  List.replicate 8 (.ring .r) ++ List.replicate 7 .message ++ [.call 0]

/-- Non-trivial instance: a schedule that is in time although `messageLoop`, woken, runs ahead; the call returns its reply. -/
example : ∃ s, Conn.Reach small (InTimeConn small) s ∧ ∃ d, (s.calls 0).pc = .done (.reply d) ∧
    s.received = [0, 0, 0, 4, 0, 0, 0, 1] ∧ s.frames = [[0, 0, 0, 1]] ∧ Conn.run small aheadInTime (Conn.init small) = some s := by
  have h : ((Conn.run small aheadInTime (Conn.init small)).map fun s =>
      (match (s.calls 0).pc with | .done (.reply _) => true | _ => false, s.received, s.frames)) =
      some (true, [0, 0, 0, 4, 0, 0, 0, 1], [[0, 0, 0, 1]]) := by decide +kernel
  obtain ⟨s, h1, h2⟩ := Option.map_eq_some_iff.1 h
  simp only [Prod.mk.injEq] at h2
  obtain ⟨h2, h3, h4⟩ := h2
  refine ⟨s, reach_inTimeConn aheadInTime .init (by decide +kernel) h1, ?_⟩
  split at h2
  · exact ⟨_, by assumption, h3, h4, h1⟩
  · cases h2

end Kafka.Props
