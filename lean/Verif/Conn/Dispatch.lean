import Verif.Conn.Exchange
/-!
What is in the ring buffer is dispatched, frame by frame.
-/
set_option linter.unusedSimpArgs false

namespace Kafka.Conn

open Kafka

/-- `messageLoop` is about to read the next frame, the bytes `q` are in the ring buffer, and nobody holds
`readLock`. -/
structure Ready (P : Params) (q : List Byte) (s : State) : Prop where
  crashed : s.crashed = false
  mpc : s.mpc = .top
  cancelled : s.cancelled = false
  readLock : s.readLock = none
  quiet : Ring.Quiet P.ring s.ring
  queue : Ring.queue s.ring = q

/-- What has happened when the frame `f` has been read. -/
structure Dispatched (P : Params) (f : List Byte) (s s' : State) : Prop where
  lpc : s'.lpc = s.lpc
  rawClosed : s'.rawClosed = s.rawClosed
  writeLock : s'.writeLock = s.writeLock
  werr : s'.werr = s.werr
  received : s'.received = s.received
  closers : s'.closers = s.closers
  pc : ∀ c, (s'.calls c).pc = (s.calls c).pc
  job : ∀ c, (s'.calls c).job = (s.calls c).job
  id : ∀ c, (s'.calls c).id = (s.calls c).id
  other : ∀ id, ¬Wire.int32 id <+: f → s'.requests id = s.requests id
  reply : ∀ id c, Wire.int32 id <+: f → s.requests id = some c → ∃ d, Given P.buf f d ∧ (s'.calls c).chan = some d

theorem Ready.dispatch {P : Params} (hN : 2 ≤ P.ring) (hP : 4 ≤ P.buf) {s : State} (hr : Reach P Any s) {v : Int32}
    {f t : List Byte} (h : Ready P (Wire.int32 v ++ (f ++ t)) s) (hf : f.length = v.toInt.toNat)
    (hlen : f.length ≤ P.buf) (hok : ∀ c d, (s.calls c).job.panics d = false) :
    ∃ s', Leads P s s' ∧ Ready P t s' ∧ Dispatched P f s s' := by
  have hlv : (Wire.int32 v).length = 4 := by rw [wire_int32]; rfl
  obtain ⟨r3, l3, q3, z3, d3, t3⟩ := leads_head hN hP hr h.crashed h.mpc h.cancelled h.quiet (by
    rw [h.queue, List.length_append]; omega)
  have t3' : r3.rdst.take 4 = Wire.int32 v := by rw [t3, h.queue, List.take_left' hlv]
  have z3' : Ring.queue r3 = f ++ t := by rw [z3, h.queue, List.drop_left' hlv]
  have reach3 := l3.reach hr
  have hm : v.toInt.toNat = f.length := by omega
  obtain ⟨r4, l4, q4, z4, d4, t4⟩ := leads_body hN hP reach3 h.crashed rfl q3 (v := v) t3' (by omega) (by
    show _ ≤ (Ring.queue r3).length
    rw [z3', hm]; simp)
  have t4' : r4.rdst.take f.length = f := by
    have := t4
    rw [hm] at this
    rw [this]
    show (Ring.queue r3).take _ = _
    rw [z3', List.take_left]
  have z4' : Ring.queue r4 = t := by
    rw [z4, hm]; show (Ring.queue r3).drop _ = _
    rw [z3', List.drop_left]
  have l14 : Leads P s { s with ring := r4, mpc := .inBody v.toInt, buf := r3.rdst } := l3.trans l4
  refine (fun ⟨s', h1, h2⟩ => ⟨s', l14.trans h1, h2⟩ :
    (∃ s', Leads P _ s' ∧ Ready P t s' ∧ Dispatched P f s s') → _) ?_
  have hb := (l14.reach hr).frames.size v.toInt rfl
  have hgt : ¬ v.toInt > (r3.rdst.length : Int) := by rw [d3]; omega
  rcases header_start (raw := r4.rdst) (size := v.toInt) hb.1 hb.2 (by omega) with ⟨h4, hs⟩ | ⟨h4, resp, hs1, hs⟩
  · -- too short
    refine Leads.next .message (by
      simp only [Conn.step, h.crashed, messageStep, q4.rpc, if_neg hgt, hs]
      rfl) ?_
    refine ⟨_, .refl _, ⟨rfl, rfl, h.cancelled, h.readLock, q4, z4'⟩, rfl, rfl, rfl, rfl, rfl, rfl, fun _ => rfl, fun _ => rfl, fun _ => rfl,
      fun _ _ => rfl, fun id c hp => ?_⟩
    have h5 := hp.length_le
    have h6 : (Wire.int32 id).length = 4 := by rw [wire_int32]; rfl
    omega
  · have hv : v.toInt = f.length := by omega
    have hgiven : Given P.buf f ⟨r4.rdst, v.toInt, 4⟩ := ⟨by
      have := List.take_prefix f.length r4.rdst
      rwa [t4'] at this, hv, rfl, d4⟩
    have hpre : f.take 4 = Wire.int32 resp.CorrelationId := by
      rw [← hs1, ← t4', List.take_take]
      congr 1
      omega
    have hid : ∀ id, Wire.int32 id <+: f → id = resp.CorrelationId := fun id hp => by
      have e1 := List.prefix_iff_eq_take.1 hp
      have h6 : (Wire.int32 id).length = 4 := by rw [wire_int32]; rfl
      rw [h6, hpre] at e1
      rw [wire_int32, wire_int32] at e1
      have h1 := beUint32_be32 id.toBitVec []
      have h2 := beUint32_be32 resp.CorrelationId.toBitVec []
      rw [e1, h2, Option.some.injEq] at h1
      exact (Int32.toBitVec_inj.1 h1).symm
    have hself : Wire.int32 resp.CorrelationId <+: f := hpre ▸ List.take_prefix _ _
    refine Leads.next .message (by
      simp only [Conn.step, h.crashed, messageStep, q4.rpc, if_neg hgt, hs]
      rfl) ?_
    cases hq : s.requests resp.CorrelationId with
    | none =>
      iterate 4 refine Leads.next .message (by
        simp [Conn.step, messageStep, State.set, h.crashed, h.readLock, hq]; rfl) ?_
      refine ⟨_, .refl _, ⟨rfl, rfl, h.cancelled, rfl, q4, z4'⟩, rfl, rfl, rfl, rfl, rfl, rfl, fun _ => rfl, fun _ => rfl, fun _ => rfl,
        fun id hp => ?_, fun id c hp hc => ?_⟩
      · simp only [upd]
        rw [if_neg (by rintro rfl; exact hp hself)]
      · rw [hid id hp, hq] at hc; cases hc
    | some c =>
      have hchan : (s.calls c).chan = none := by
        have h1 := (hr.tokens.map _ c hq).2.2.2
        refine Classical.byContradiction fun h2 => ?_
        have h3 := (hr.tokens.chan c h2).2.2
        omega
      iterate 6 refine Leads.next .message (by
        simp [Conn.step, messageStep, State.set, h.crashed, h.readLock, hq, hok, hchan]; rfl) ?_
      refine ⟨_, .refl _, ⟨rfl, rfl, h.cancelled, rfl, q4, z4'⟩, rfl, rfl, rfl, rfl, rfl, rfl, fun j => ?_, fun j => ?_, fun j => ?_,
        fun id hp => ?_, fun id c' hp hc => ⟨_, hgiven, ?_⟩⟩
      · by_cases hj : j = c <;> simp [State.set, hj]
      · by_cases hj : j = c <;> simp [State.set, hj]
      · by_cases hj : j = c <;> simp [State.set, hj]
      · simp only [State.set, upd]
        rw [if_neg (by rintro rfl; exact hp hself)]
      · rw [hid id hp, hq] at hc
        cases hc
        simp [State.set]

/-- A frame arrives while nobody does anything, and is dispatched. -/
theorem Calm.frame {P : Params} (hN : 2 ≤ P.ring) (hP : 4 ≤ P.buf) {s : State} (hr : Reach P Any s) (h : Calm P s) {v : Int32}
    {f : List Byte} (hf : f.length = v.toInt.toNat) (hlen : f.length ≤ P.buf) (hroom : f.length + 6 ≤ P.ring)
    (hok : ∀ c d, (s.calls c).job.panics d = false) :
    ∃ s', Leads P s s' ∧ Calm P s' ∧ s'.received = s.received ++ (Wire.int32 v ++ f) ∧
      s'.closers = s.closers ∧ ∀ c, (s'.calls c).job = (s.calls c).job := by
  have hlv : (Wire.int32 v).length = 4 := by rw [wire_int32]; rfl
  obtain ⟨r1, l1, q1, z1, _⟩ := leads_read hN (s := s) h.crashed h.lpc h.rawClosed h.quiet (data := Wire.int32 v)
    (by omega) (by rw [h.empty, hlv]; simp; omega)
  rw [h.empty, List.nil_append] at z1
  obtain ⟨r2, l2, q2, z2, _⟩ := leads_read hN (s := { s with ring := r1, received := s.received ++ Wire.int32 v })
    h.crashed h.lpc h.rawClosed q1 (data := f) hlen (by
      show (Ring.queue r1).length + _ + _ ≤ _
      rw [z1, hlv]; omega)
  have z2' : Ring.queue r2 = Wire.int32 v ++ (f ++ []) := by
    rw [z2, List.append_nil]; show Ring.queue r1 ++ _ = _; rw [z1]
  have l12 := l1.trans l2
  obtain ⟨s', l3, h3, h4⟩ := Ready.dispatch hN hP (l12.reach hr) ⟨h.crashed, h.mpc, h.cancelled, h.readLock, q2, z2'⟩ hf hlen hok
  refine ⟨s', l12.trans l3, ⟨h3.crashed, h4.lpc.trans h.lpc, h4.rawClosed.trans h.rawClosed, h3.mpc, h3.cancelled, h3.readLock,
    h4.writeLock.trans h.writeLock, h4.werr.trans h.werr, h3.quiet, h3.queue⟩, ?_, h4.closers, h4.job⟩
  rw [h4.received]
  exact List.append_assoc _ _ _

theorem splitStream_cons {q f : List Byte} {fs : List (List Byte)} (h : splitStream q = f :: fs) :
    ∃ v t, q = Wire.int32 v ++ (f ++ t) ∧ f.length = v.toInt.toNat ∧ splitStream t = fs := by
  match q, h with
  | a :: b :: c :: d :: rest, h =>
    rw [splitStream] at h
    split at h
    · cases h
    · rename_i hn
      injection h with h1 h2
      refine ⟨Int32.ofBitVec (a ++ b ++ c ++ d), rest.drop (Wire.readInt32 a b c d).toNat, ?_, ?_, h2⟩
      · rw [← h1, List.take_append_drop, wire_int32]
        show _ = be32 (a ++ b ++ c ++ d) ++ rest
        rw [be32_append]
        rfl
      · rw [← h1, List.length_take]
        show min (Wire.readInt32 a b c d).toNat rest.length = (Wire.readInt32 a b c d).toNat
        omega
  | [], h | [_], h | [_, _], h | [_, _, _], h => rw [splitStream] at h <;> first | cases h | simp

/-- Every frame in the ring buffer comes to be dispatched; a call waiting for one of them returns. -/
theorem Ready.all {P : Params} (hN : 2 ≤ P.ring) (hP : 4 ≤ P.buf) {c : Nat} {p : List Byte} : ∀ (fs : List (List Byte))
    {q : List Byte} {s : State}, splitStream q = fs → Reach P Any s → Ready P q s →
    (∀ c d, (s.calls c).job.panics d = false) → (∀ f ∈ fs, f.length ≤ P.buf) →
    (s.calls c).pc = .recv → s.requests (s.calls c).id = some c → p ∈ fs → Wire.int32 (s.calls c).id <+: p →
    ∃ s' f d, Leads P s s' ∧ s'.received = s.received ∧ s'.closers = s.closers ∧ (s'.calls c).pc = .done (.reply d) ∧
      f ∈ fs ∧ Wire.int32 (s.calls c).id <+: f ∧ Given P.buf f d
  | [], _, _, _, _, _, _, _, _, _, hp, _ => by cases hp
  | f :: fs, q, s, hq, hr, h, hok, hl, hpc, hreq, hp, hid => by
    obtain ⟨v, t, rfl, hf, ht⟩ := splitStream_cons hq
    obtain ⟨s1, l1, h1, h2⟩ := h.dispatch hN hP hr hf (hl f (by simp)) hok
    by_cases hpre : Wire.int32 (s.calls c).id <+: f
    · obtain ⟨d, h3, h4⟩ := h2.reply _ c hpre hreq
      refine ⟨_, f, d, l1.trans (.step (.call c) (by simp [Conn.step, callStep, h1.crashed, h2.pc, hpc, h4]; rfl) (.refl _)),
        ?_, ?_, ?_, by simp, hpre, h3⟩
      · exact h2.received
      · exact h2.closers
      · simp [State.set]
    · have hne : p ≠ f := by rintro rfl; exact hpre hid
      obtain ⟨s', g, d, l2, h3, h4, h5, h6, h7, h8⟩ := Ready.all hN hP fs ht (l1.reach hr) h1
        (fun c d => by rw [h2.job]; exact hok c d) (fun f hf => hl f (by simp [hf])) (by rw [h2.pc]; exact hpc)
        (by rw [h2.id, h2.other _ hpre]; exact hreq) (by simpa [hne] using hp) (by rw [h2.id]; exact hid)
      exact ⟨s', g, d, l1.trans l2, h3.trans h2.received, h4.trans h2.closers, h5, by simp [h6], by rwa [h2.id] at h7, h8⟩

end Kafka.Conn
