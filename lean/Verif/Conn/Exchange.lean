import Verif.Conn.Live
import Verif.Conn.Seq
import Verif.Conn.Memory
/-!
A call and its reply on a connection on which nothing else is going on.
-/
set_option linter.unusedSimpArgs false

namespace Kafka.Conn

open Kafka

theorem run_next {P : Params} {a : Act} {as : List Act} {s s1 : State} {p : State → Prop} (h : step P a s = some s1)
    (h' : ∃ s', run P as s1 = some s' ∧ p s') : ∃ s', run P (a :: as) s = some s' ∧ p s' := by
  rw [run, h]; exact h'

theorem Leads.next {P : Params} {s s1 : State} {p : State → Prop} (a : Act) (h : Conn.step P a s = some s1)
    (h' : ∃ s', Leads P s1 s' ∧ p s') : ∃ s', Leads P s s' ∧ p s' := by
  obtain ⟨s', h1, h2⟩ := h'
  exact ⟨s', .step a h h1, h2⟩

/-- The connection is open and nobody is doing anything. -/
structure Calm (P : Params) (s : State) : Prop where
  crashed : s.crashed = false
  lpc : s.lpc = .read
  rawClosed : s.rawClosed = false
  mpc : s.mpc = .top
  cancelled : s.cancelled = false
  readLock : s.readLock = none
  writeLock : s.writeLock = none
  werr : s.werr = none
  quiet : Ring.Quiet P.ring s.ring
  empty : Ring.queue s.ring = []

theorem Calm.init {P : Params} (hN : 2 ≤ P.ring) : Calm P (init P) :=
  ⟨rfl, rfl, rfl, rfl, rfl, rfl, rfl, rfl, Ring.Quiet.init hN, rfl⟩

/-- What a call leaves behind when it has sent its request. -/
structure Asked (P : Params) (c : Nat) (j : Job) (s s' : State) : Prop where
  calm : Calm P s'
  id : s'.id = s.id + 1
  registered : s'.requests (s.id + 1) = some c
  pc : (s'.calls c).pc = .recv
  job : (s'.calls c).job = j
  callId : (s'.calls c).id = s.id + 1
  others : ∀ i, i ≠ c → s'.calls i = s.calls i
  received : s'.received = s.received
  wire : s'.wire = s.wire ++ j.frame (s.id + 1)

/-- A call is made and sends its request. -/
theorem Calm.ask {P : Params} {s : State} (h : Calm P s) {c : Nat} (hc : (s.calls c).pc = .absent) (job : Job) :
    ∃ s', Leads P s s' ∧ Asked P c job s s' := by
  obtain ⟨h1, h2, h3, h4, h5, h6, h7, h8, h9, h10⟩ := h
  refine Leads.next (.start c job) (by simp [Conn.step, h1, hc]; rfl) ?_
  iterate 6 refine Leads.next (.call c) (by simp [Conn.step, callStep, State.set, h1, h6, h7, h8]; rfl) ?_
  by_cases hf : job.frame (s.id + 1) = []
  · refine Leads.next (.call c) (by simp [Conn.step, callStep, State.set, h1, h6, h7, h8, hf]; rfl) ?_
    refine Leads.next (.call c) (by simp [Conn.step, callStep, State.set, h1, h6, h7, h8]; rfl) ?_
    refine ⟨_, .refl _, ⟨rfl, h2, h3, h4, h5, rfl, rfl, rfl, h9, h10⟩, rfl, ?_, ?_, ?_, ?_, ?_, rfl, ?_⟩ <;>
      simp +contextual [upd, State.set, hf]
  · have hf' : 0 < (job.frame (s.id + 1)).length := List.length_pos_iff.2 hf
    refine Leads.next (.write c (job.frame (s.id + 1)).length) (by
      simp [Conn.step, callStep, State.set, h1, h3, h6, h7, h8, hf']; rfl) ?_
    refine Leads.next (.call c) (by simp [Conn.step, callStep, State.set, h1, h6, h7, h8]; rfl) ?_
    refine Leads.next (.call c) (by simp [Conn.step, callStep, State.set, h1, h6, h7, h8]; rfl) ?_
    refine ⟨_, .refl _, ⟨rfl, h2, rfl, h4, h5, rfl, rfl, rfl, h9, h10⟩, rfl, ?_, ?_, ?_, ?_, ?_, rfl, ?_⟩ <;>
      simp +contextual [upd, State.set]

/-- A decoder for `payload`, in a buffer of `n` bytes, after the correlation id. -/
structure Given (n : Nat) (payload : List Byte) (d : Decoder) : Prop where
  raw : payload <+: d.raw
  length : d.length = payload.length
  offset : d.offset = 4
  size : d.raw.length = n

/-- What a reply leaves behind when its call has returned it. -/
structure Replied (P : Params) (c : Nat) (payload : List Byte) (d : Decoder) (s s' : State) : Prop where
  calm : Calm P s'
  given : Given P.buf payload d
  pc : (s'.calls c).pc = .done (.reply d)
  job : (s'.calls c).job = (s.calls c).job
  callId : (s'.calls c).id = (s.calls c).id
  sent : (s'.calls c).sent = (s.calls c).sent
  id : s'.id = s.id
  wire : s'.wire = s.wire
  others : ∀ j, j ≠ c → s'.calls j = s.calls j
  memory : s'.memory = d.raw
  received : s'.received = s.received ++ (Wire.int32 (Int32.ofInt payload.length) ++ payload)

/-- The reply to a call arrives and is returned. -/
theorem Calm.answer {P : Params} (hN : 2 ≤ P.ring) (hP : 4 ≤ P.buf) {s : State} (hr : Reach P Any s) (h : Calm P s)
    {c : Nat} {id : Int32} (hreq : s.requests id = some c) (hpc : (s.calls c).pc = .recv) {payload : List Byte}
    (hid : Wire.int32 id <+: payload) (hlen : payload.length ≤ P.buf) (hroom : payload.length + 6 ≤ P.ring)
    (h31 : payload.length < 2 ^ 31) (hok : ∀ d, Given P.buf payload d → (s.calls c).job.panics d = false) :
    ∃ s', Leads P s s' ∧ ∃ d, Replied P c payload d s s' := by
  have hchan : (s.calls c).chan = none := by
    have h1 := (hr.tokens.map id c hreq).2.2.2
    refine Classical.byContradiction fun h2 => ?_
    have h3 := (hr.tokens.chan c h2).2.2
    omega
  have hv : (Int32.ofInt payload.length).toInt = payload.length := by
    rw [Int32.toInt_ofInt]
    exact Int.bmod_eq_of_le (by simp only [Int32.size]; omega) (by simp only [Int32.size]; omega)
  generalize hve : Int32.ofInt payload.length = v at hv
  have hlv : (Wire.int32 v).length = 4 := by rw [wire_int32]; rfl
  have hlid : (Wire.int32 id).length = 4 := by rw [wire_int32]; rfl
  have h4 : 4 ≤ payload.length := by have := hid.length_le; omega
  -- the bytes arrive
  obtain ⟨r1, l1, q1, z1, _⟩ := leads_read hN (s := s) h.crashed h.lpc h.rawClosed h.quiet (data := Wire.int32 v)
    (by omega) (by rw [h.empty, hlv]; simp; omega)
  rw [h.empty, List.nil_append] at z1
  obtain ⟨r2, l2, q2, z2, _⟩ := leads_read hN (s := { s with ring := r1, received := s.received ++ Wire.int32 v })
    h.crashed h.lpc h.rawClosed q1 (data := payload) hlen (by
      show (Ring.queue r1).length + _ + _ ≤ _
      rw [z1, hlv]; omega)
  have z2' : Ring.queue r2 = Wire.int32 v ++ payload := by
    rw [z2]; show Ring.queue r1 ++ _ = _; rw [z1]
  have l12 := l1.trans l2
  have reach2 := l12.reach hr
  -- and are read
  obtain ⟨r3, l3, q3, z3, d3, t3⟩ := leads_head hN hP reach2 h.crashed h.mpc h.cancelled q2 (by
    show 4 ≤ (Ring.queue r2).length
    rw [z2', List.length_append]; omega)
  have t3' : r3.rdst.take 4 = Wire.int32 v := by
    rw [t3]; show (Ring.queue r2).take 4 = _
    rw [z2', List.take_left' hlv]
  have z3' : Ring.queue r3 = payload := by
    rw [z3]; show (Ring.queue r2).drop 4 = _
    rw [z2', List.drop_left' hlv]
  have l13 := l12.trans l3
  have reach3 := l13.reach hr
  have hm : v.toInt.toNat = payload.length := by rw [hv]; simp
  obtain ⟨r4, l4, q4, z4, d4, t4⟩ := leads_body hN hP reach3 h.crashed rfl q3 (v := v) t3' (by omega) (by
    show _ ≤ (Ring.queue r3).length
    rw [z3', hm]; omega)
  have t4' : r4.rdst.take payload.length = payload := by
    have := t4
    rw [hm] at this
    rw [this]
    show (Ring.queue r3).take _ = _
    rw [z3', List.take_length]
  have z4' : Ring.queue r4 = [] := by
    rw [z4, hm]; show (Ring.queue r3).drop _ = _
    rw [z3', List.drop_length]
  have l14 : Leads P s { s with ring := r4, mpc := .inBody v.toInt, buf := r3.rdst,
                                received := s.received ++ Wire.int32 v ++ payload } := l13.trans l4
  obtain ⟨resp, hs1, hs⟩ := (header_start (raw := r4.rdst) (size := v.toInt) (by omega) (by omega) (by omega)).resolve_left (fun h => by omega) |>.2
  have hresp : resp.CorrelationId = id := by
    have e1 : Wire.int32 id = Wire.int32 resp.CorrelationId := by
      have e2 : (r4.rdst.take payload.length).take 4 = r4.rdst.take 4 := by rw [List.take_take, Nat.min_eq_left h4]
      rw [← hs1, ← e2, t4']
      have e3 := List.prefix_iff_eq_take.1 hid
      rwa [hlid] at e3
    rw [wire_int32, wire_int32] at e1
    have h1 := beUint32_be32 id.toBitVec []
    have h2 := beUint32_be32 resp.CorrelationId.toBitVec []
    rw [e1, h2, Option.some.injEq] at h1
    exact Int32.toBitVec_inj.1 h1
  -- dispatched
  have hgiven : Given P.buf payload ⟨r4.rdst, v.toInt, 4⟩ := ⟨by
    have := List.take_prefix payload.length r4.rdst
    rwa [t4'] at this, hv, rfl, d4⟩
  have hpan := hok _ hgiven
  refine (fun ⟨s', h1, h2⟩ => ⟨s', l14.trans h1, h2⟩ : (∃ s', Leads P _ s' ∧ ∃ d, Replied P c payload d s s') → _) ?_
  have hgt : ¬ v.toInt > (r3.rdst.length : Int) := by rw [d3]; omega
  refine Leads.next .message (by
    simp only [Conn.step, h.crashed, messageStep, q4.rpc, if_neg hgt, hs, hresp]
    rfl) ?_
  iterate 6 refine Leads.next .message (by
    simp [Conn.step, messageStep, State.set, h.crashed, h.readLock, hreq, hpan, hchan]; rfl) ?_
  refine Leads.next (.call c) (by simp [Conn.step, callStep, State.set, h.crashed, hpc]; rfl) ?_
  refine ⟨_, .refl _, ⟨r4.rdst, v.toInt, 4⟩, ⟨rfl, h.lpc, h.rawClosed, rfl, h.cancelled, rfl, h.writeLock, h.werr, q4, z4'⟩,
    hgiven, ?_, ?_, ?_, ?_, ?_, ?_, ?_, ?_, ?_⟩
  all_goals simp +contextual [State.set, State.memory, hve]

end Kafka.Conn
