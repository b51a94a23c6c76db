import Verif.Conn.Exchange
/-!
What can become of a call on a connection on which nothing else is going on, apart from a reply.
-/
set_option linter.unusedSimpArgs false

namespace Kafka.Conn

open Kafka

theorem ring_open {N : Nat} {a : Ring.Action} {r r' : Ring.State} (hs : Ring.step N a r = some r') (ha : a ≠ .close) :
    r'.closed = r.closed := by
  cases a <;> simp only [Ring.step, Ring.wStep, Ring.rStep] at hs
  case close => exact absurd rfl ha
  all_goals
    (split at hs <;> try split at hs) <;> (try split at hs) <;> (try cases hs) <;>
      simp [Ring.wReleased, Ring.wWaited, Ring.wReturn, Ring.rWaited, Ring.rReturn]
  all_goals split <;> simp [Ring.wReleased, Ring.wWaited, Ring.wReturn, Ring.rWaited, Ring.rReturn]

/-- The ring buffer is closed only by `Close`, after it has cancelled the context. -/
theorem Reach.ringOpen {P : Params} {ok : State → Act → Prop} {s : State} (h : Reach P ok s) (hc : s.cancelled = false) :
    s.ring.closed = false := by
  have h1 : s.ring.closed = true → s.cancelled = true := by
    refine h.inv (I := fun s => s.ring.closed = true → s.cancelled = true) (fun h => (by cases h))
      fun {s s' a} hr hi hok ht => ?_
    clear hok
    have hcl := hr.closed
    cases ht
    case ring a r ha hr => rw [ring_open hr (by rintro rfl; cases ha)]; exact hi
    case head r _ _ hr => rw [ring_open hr (by simp)]; exact hi
    case body size r _ _ _ hr => rw [ring_open hr (by simp)]; exact hi
    case read data r _ _ _ hr => rw [ring_open hr (by simp)]; exact hi
    case rbClose j r hj hr => intro _; exact hcl.cancel j (by simp [hj]) (by simp [hj])
    case cancel => intro _; rfl
    all_goals exact hi
  cases e : s.ring.closed with
  | false => rfl
  | true => rw [h1 e] at hc; cases hc

/-- The request of a call is not written, and the call returns the error. -/
theorem Calm.lost {P : Params} {s : State} (h : Calm P s) {c : Nat} (hc : (s.calls c).pc = .absent) (job : Job)
    (hf : job.frame (s.id + 1) ≠ []) (e : WErr) :
    ∃ s', Leads P s s' ∧ (s'.calls c).pc = .done (.flushErr e) ∧ (s'.calls c).job = job ∧
      (∀ i, i ≠ c → s'.calls i = s.calls i) ∧ s'.wire = s.wire := by
  obtain ⟨h1, h2, h3, h4, h5, h6, h7, h8, h9, h10⟩ := h
  refine Leads.next (.start c job) (by simp [Conn.step, h1, hc]; rfl) ?_
  iterate 6 refine Leads.next (.call c) (by simp [Conn.step, callStep, State.set, h1, h6, h7, h8]; rfl) ?_
  refine Leads.next (.writeErr c 0 e) (by simp [Conn.step, State.set, h1, h3, hf]; rfl) ?_
  refine Leads.next (.call c) (by simp [Conn.step, callStep, State.set, h1, h6, h7, h8]; rfl) ?_
  refine ⟨_, .refl _, ?_, ?_, ?_, ?_⟩ <;> simp +contextual [upd, State.set]

/-- `messageLoop` waits in `ReadN` for a `readLoop` that has ended, and call `c` for its reply. -/
structure Mute (c : Nat) (s : State) : Prop where
  lpc : s.lpc = .exited
  wpc : s.ring.wpc = .idle
  rpc : s.ring.rpc = .waitSend
  open' : s.ring.closed = false
  mpc : s.mpc = .inHead
  pc : (s.calls c).pc = .recv
  chan : (s.calls c).chan = none

theorem Mute.trans {P : Params} {c : Nat} {s s' : State} {a : Act} (h : Mute c s) (ha : a.isClose = false)
    (ht : Trans P s a s') : Mute c s' := by
  obtain ⟨h1, h2, h3, h4, h5, h6, h7⟩ := h
  cases ht
  case ring a r hi hr => exact absurd hr (ring_stopped h2 h3 h4 hi)
  all_goals first
    | cases ha; done
    | simp_all; done
    | (refine ⟨h1, h2, h3, h4, h5, ?_, ?_⟩ <;> simp only [State.set] <;> grind)

theorem Mute.run {P : Params} {c : Nat} {s s' : State} {as : List Act} (h : Mute c s) (ha : ∀ a ∈ as, a.isClose = false)
    (hr : run P as s = some s') : (s'.calls c).pc = .recv :=
  (run_inv (I := Mute c) (ok := fun a => a.isClose = false) (fun _ _ _ h ha ht => h.trans ha ht) as ha h hr).pc

/-- The peer closes the connection when `messageLoop` waits for a frame. -/
theorem Calm.mute {P : Params} (hP : 4 ≤ P.buf) {s : State} (hr : Reach P Any s) (h : Calm P s) {c : Nat}
    {id : Int32} (hreq : s.requests id = some c) (hpc : (s.calls c).pc = .recv) :
    ∃ s', Leads P s s' ∧ Mute c s' ∧ s'.calls = s.calls ∧ s'.wire = s.wire ∧ s'.crashed = false := by
  have hchan : (s.calls c).chan = none := by
    have h1 := (hr.tokens.map id c hreq).2.2.2
    refine Classical.byContradiction fun h2 => ?_
    have h3 := (hr.tokens.chan c h2).2.2
    omega
  have hb := hr.frames.buf
  have hcl := hr.ringOpen h.cancelled
  have heq : s.ring.start = s.ring.next := by
    have q := h.quiet
    have e1 := h.empty
    rw [Ring.queue, List.drop_eq_nil_iff] at e1
    have e2 := q.fifo.pre.length_le
    have e3 := q.pos.wpub (by rw [q.wpc]; rfl)
    have e4 := q.pos.rrel (by rw [q.rpc]; rfl)
    rw [q.pos.start, q.pos.next, e3, e4]
    congr 1; omega
  have hst : Ring.step P.ring (.callR s.buf (min 4 s.buf.length)) s.ring =
      some { s.ring with rpc := .load1, rdst := s.buf, rn := 4, rorig := s.buf } := by
    rw [Nat.min_eq_left (by omega)]
    simp [Ring.step, h.quiet.rpc]
    omega
  refine Leads.next .message (by
    rw [step_message h.crashed]
    simp only [messageStep, h.mpc, h.cancelled, readN]
    simp only [show (4 : Int).toNat = 4 from rfl, hst]
    rfl) ?_
  iterate 5 refine Leads.next (.ring .r) (by
    simp [Conn.step, inRing, Ring.step, Ring.rStep, Ring.rLoop, h.crashed, heq, h.quiet.rset]; rfl) ?_
  refine Leads.next (.readErr []) (by simp [Conn.step, h.crashed, h.lpc, h.rawClosed]; rfl) ?_
  exact ⟨_, .refl _, ⟨rfl, h.quiet.wpc, rfl, hcl, rfl, hpc, hchan⟩, rfl, rfl, rfl⟩

/-- The peer announces a frame larger than the buffer, and sends one byte more of it than the buffer holds. -/
theorem Calm.crash {P : Params} (hP : 4 ≤ P.buf) (hN : P.buf + 7 ≤ P.ring) {s : State} (hr : Reach P Any s) (h : Calm P s)
    {size : Int32} (hs : (P.buf : Int) < size.toInt) {data : List Byte} (hd : data.length = P.buf + 1) :
    ∃ s', Leads P s s' ∧ s'.crashed = true ∧ s'.calls = s.calls ∧ s'.wire = s.wire ∧
      s'.received = s.received ++ Wire.int32 size ++ data := by
  have hlen : (Wire.int32 size).length = 4 := by rw [wire_int32]; rfl
  have hN2 : 2 ≤ P.ring := by omega
  obtain ⟨r0, l0, q0, z0, _⟩ := leads_read hN2 h.crashed h.lpc h.rawClosed h.quiet (data := Wire.int32 size)
    (by omega) (by rw [h.empty, hlen]; simp; omega)
  rw [h.empty, List.nil_append] at z0
  obtain ⟨r1, l1, q1, z1, _⟩ := leads_read hN2 (s := { s with ring := r0, received := s.received ++ Wire.int32 size })
    h.crashed h.lpc h.rawClosed q0 (data := data.take P.buf) (by simp; omega) (by
      show (Ring.queue r0).length + _ + _ ≤ _
      rw [z0, hlen, List.length_take]; omega)
  have z1' : Ring.queue r1 = Wire.int32 size ++ data.take P.buf := by
    rw [z1]; show Ring.queue r0 ++ _ = _; rw [z0]
  obtain ⟨r2, l2, q2, z2, _⟩ := leads_read hN2
    (s := { s with ring := r1, received := s.received ++ Wire.int32 size ++ data.take P.buf })
    h.crashed h.lpc h.rawClosed q1 (data := data.drop P.buf) (by simp; omega) (by
      show (Ring.queue r1).length + _ + _ ≤ _
      rw [z1', List.length_append, hlen, List.length_take, List.length_drop]; omega)
  have z2' : Ring.queue r2 = Wire.int32 size ++ data := by
    rw [z2]; show Ring.queue r1 ++ _ = _
    rw [z1', List.append_assoc, List.take_append_drop]
  have l12 := (l0.trans l1).trans l2
  have reach2 := l12.reach hr
  obtain ⟨r3, l3, q3, z3, d3, t3⟩ := leads_head hN2 hP reach2 h.crashed h.mpc h.cancelled q2 (by
    show 4 ≤ (Ring.queue r2).length
    rw [z2', List.length_append, hlen]; omega)
  have t3' : r3.rdst.take 4 = Wire.int32 size := by
    rw [t3]; show (Ring.queue r2).take 4 = _
    rw [z2', List.take_left' hlen]
  have z3' : Ring.queue r3 = data := by
    rw [z3]; show (Ring.queue r2).drop 4 = _
    rw [z2', List.drop_left' hlen]
  have reach3 := l3.reach reach2
  obtain ⟨r4, l4⟩ := leads_over hN2 hP reach3 h.crashed rfl q3 (v := size) t3' hs (by
    show _ ≤ (Ring.queue r3).length
    rw [z3', hd]; exact Nat.le_refl _)
  refine ⟨_, (l12.trans l3).trans l4, rfl, rfl, rfl, ?_⟩
  show s.received ++ Wire.int32 size ++ data.take P.buf ++ data.drop P.buf = _
  rw [List.append_assoc _ (data.take P.buf), List.take_append_drop]

end Kafka.Conn
