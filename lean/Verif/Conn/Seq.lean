import Verif.Conn.Live
import Verif.Ring.Seq
/-!
Schedules in which a whole `WriteN` or `ReadN` happens without interruption.
-/
namespace Kafka.Conn

open Kafka

theorem leads_runW {P : Params} (s : State) (hc : s.crashed = false) : ∀ (k : Nat) {r r' : Ring.State},
    Ring.runW P.ring k r = some r' → Leads P { s with ring := r } { s with ring := r' } ∧ r'.wpc = .idle
  | 0, r, r', h => by
    simp only [Ring.runW] at h
    split at h <;> simp only [Option.some.injEq, reduceCtorEq] at h
    subst h; exact ⟨.refl _, by assumption⟩
  | k + 1, r, r', h => by
    simp only [Ring.runW] at h
    split at h
    · simp only [Option.some.injEq] at h
      subst h; exact ⟨.refl _, by assumption⟩
    · obtain ⟨r1, h1, h2⟩ := Option.bind_eq_some_iff.1 h
      obtain ⟨h3, h4⟩ := leads_runW s hc k h2
      exact ⟨.step (.ring .w) (by simp [step, hc, inRing, Ring.step, h1]) h3, h4⟩

theorem not_full {s : State} (h : Ring.Calls s.ring) (hn : s.ring.rn ≤ s.buf.length) : full s = false := by
  cases hf : full s with
  | false => rfl
  | true =>
    simp only [full, Bool.and_eq_true, decide_eq_true_eq] at hf
    have := h.rbody (by rw [hf.1]; rfl)
    omega

/-- Only a size larger than the buffer runs out of room. -/
theorem Reach.full {P : Params} (hP : 4 ≤ P.buf) {ok : State → Act → Prop} {s : State} (h : Reach P ok s)
    (hf : full s = true) : ∃ size, s.mpc = .inBody size ∧ (P.buf : Int) < size := by
  have hst := h.stream hP
  have hc : Ring.Calls s.ring := (h.ring (rok := fun _ _ => True) (fun _ _ _ => trivial) fun _ _ _ => trivial).calls
  have hb := h.frames.buf
  simp only [Conn.full, Bool.and_eq_true, decide_eq_true_eq] at hf
  have hlt := hc.rbody (by rw [hf.1]; rfl)
  have hlen := hc.rlen
  by_cases hh : s.mpc = .inHead
  · obtain ⟨_, _, h1, _⟩ := hst.head hh
    omega
  · refine Classical.byContradiction fun hno => ?_
    by_cases hbody : ∃ size, s.mpc = .inBody size
    · obtain ⟨size, hm⟩ := hbody
      have h1 := h.frames.body size hm
      rw [if_neg fun hx => hno ⟨size, hm, hx⟩] at h1
      omega
    · have := (hst.out fun size => ⟨hh, fun hx => hbody ⟨size, hx⟩⟩).1
      rw [this] at hf; cases hf.1

theorem step_ringR {P : Params} {s : State} (hc : s.crashed = false) (hf : full s = false) {r : Ring.State}
    (h : Ring.rStep P.ring s.ring = some r) : step P (.ring .r) s = some { s with ring := r } := by
  simp [step, hc, hf, inRing, Ring.step, h]

theorem step_full {P : Params} {s : State} (hc : s.crashed = false) (hf : full s = true) :
    step P (.ring .r) s = some { s with crashed := true } := by
  simp [step, hc, hf]

theorem leads_runR {P : Params} (s : State) (hc : s.crashed = false) : ∀ (k : Nat) {r r' : Ring.State},
    Ring.runR P.ring k r = some r' → Ring.Calls r → r.rn ≤ s.buf.length →
    Leads P { s with ring := r } { s with ring := r' } ∧ r'.rpc = .idle
  | 0, r, r', h, _, _ => by
    simp only [Ring.runR] at h
    split at h <;> simp only [Option.some.injEq, reduceCtorEq] at h
    subst h; exact ⟨.refl _, by assumption⟩
  | k + 1, r, r', h, hcalls, hn => by
    simp only [Ring.runR] at h
    split at h
    · simp only [Option.some.injEq] at h
      subst h; exact ⟨.refl _, by assumption⟩
    · obtain ⟨r1, h1, h2⟩ := Option.bind_eq_some_iff.1 h
      have hst : Ring.step P.ring .r r = some r1 := h1
      obtain ⟨h3, h4⟩ := leads_runR s hc k h2 (hcalls.step hst) (by
        rw [(ring_read hst (by simp)).1]; exact hn)
      have hf : full { s with ring := r } = false := not_full hcalls hn
      exact ⟨.step (.ring .r) (step_ringR (s := { s with ring := r }) hc hf h1) h3, h4⟩

/-- In a `ReadN` for one byte more than the buffer has, before the byte there is no room for. -/
def Filling (s : State) : Prop :=
  s.ring.rn = s.buf.length + 1 ∧
    (s.ring.rpc = .load1 ∨ s.ring.rpc = .load2 ∨ s.ring.rpc.inBody = true)

theorem Filling.idle {s : State} (h : Filling s) : s.ring.rpc ≠ .idle := fun he => by
  have := h.2
  rw [he] at this; simp [Ring.RPc.inBody] at this

theorem Filling.next {N : Nat} {s : State} (h : Filling s) (hf : full s = false) {r : Ring.State}
    (h1 : Ring.rStep N s.ring = some r) : Filling { s with ring := r } := by
  obtain ⟨hn, hp⟩ := h
  have hst : Ring.step N .r s.ring = some r := h1
  refine ⟨(ring_read hst (by simp)).1.trans hn, ?_⟩
  simp only [full, Bool.and_eq_false_iff, decide_eq_false_iff_not] at hf
  unfold Ring.rStep at h1
  split at h1 <;> rename_i hpc <;> simp only [hpc, reduceCtorEq, Ring.RPc.inBody, Bool.false_eq_true, or_self] at hp
  case h_2 => simp only [Option.some.injEq] at h1; subst h1; simp
  case h_3 =>
    simp only [Option.some.injEq] at h1; subst h1
    unfold Ring.rLoop
    rw [if_pos (by show 0 < s.ring.rn; omega)]
    split <;> simp [Ring.RPc.inBody]
  case h_10 =>
    simp only [Option.some.injEq] at h1; subst h1
    have : s.ring.ri < s.buf.length := by
      rcases hf with hf | hf
      · exact absurd hpc hf
      · exact Nat.lt_of_not_le hf
    unfold Ring.rLoop
    rw [if_pos (by show s.ring.ri + 1 < s.ring.rn; omega)]
    split <;> simp [Ring.RPc.inBody]
  all_goals
    first
      | (simp only [Option.some.injEq] at h1; subst h1; first | (split <;> simp [Ring.RPc.inBody, Ring.rWaited]) | simp [Ring.RPc.inBody, Ring.rWaited])
      | (split at h1 <;> simp only [Option.some.injEq, reduceCtorEq] at h1; subst h1; simp [Ring.RPc.inBody, Ring.rWaited])

theorem leads_full {P : Params} : ∀ (k : Nat) {s : State} {r' : Ring.State}, s.crashed = false →
    Ring.runR P.ring k s.ring = some r' → Filling s → ∃ r, Leads P s { s with ring := r, crashed := true }
  | 0, s, r', _, h, hp => by
    simp only [Ring.runR] at h
    split at h
    case isFalse => cases h
    rename_i he
    exact absurd he hp.idle
  | k + 1, s, r', hc, h, hp => by
    cases hf : full s with
    | true => exact ⟨s.ring, .step (.ring .r) (step_full hc hf) (.refl _)⟩
    | false =>
      simp only [Ring.runR, if_neg hp.idle] at h
      obtain ⟨r1, h1, h2⟩ := Option.bind_eq_some_iff.1 h
      obtain ⟨r, h3⟩ := leads_full k (s := { s with ring := r1 }) hc h2 (hp.next hf h1)
      exact ⟨r, .step (.ring .r) (step_ringR hc hf h1) h3⟩

/-- `raw.Read` returns `data` and `readLoop` puts all of it into the ring buffer. -/
theorem leads_read {P : Params} (hN : 2 ≤ P.ring) {s : State} (hc : s.crashed = false) (hl : s.lpc = .read)
    (hr : s.rawClosed = false) (hq : Ring.Quiet P.ring s.ring) {data : List Byte} (hd : data.length ≤ P.buf)
    (hroom : (Ring.queue s.ring).length + data.length + 2 ≤ P.ring) :
    ∃ r, Leads P s { s with ring := r, received := s.received ++ data } ∧ Ring.Quiet P.ring r ∧
      Ring.queue r = Ring.queue s.ring ++ data ∧ r.taken = s.ring.taken := by
  obtain ⟨r, h1, h2, h3, h4⟩ := Ring.seqWrite_ok hN hq (Nat.le_refl data.length) hroom
  obtain ⟨r0, h5, h6⟩ := Option.bind_eq_some_iff.1 h1
  have h7 := (leads_runW { s with lpc := .inWrite, received := s.received ++ data } hc _ h6)
  refine ⟨r, .step (.read data) (by simp [step, hc, hl, hr, hd, h5]) (h7.1.trans
    (.step .readNext (s1 := { s with ring := r, received := s.received ++ data }) ?_ (.refl _))), h2, ?_, h4⟩
  · simp [step, hc, h7.2, hl]
  · rw [h3, List.take_length]

/-- `messageLoop` calls `ReadN` for the next four bytes and gets them. -/
theorem leads_head {P : Params} (hN : 2 ≤ P.ring) (hP : 4 ≤ P.buf) {s : State} (hreach : Reach P Any s)
    (hc : s.crashed = false) (hm : s.mpc = .top) (hca : s.cancelled = false) (hq : Ring.Quiet P.ring s.ring)
    (hlen : 4 ≤ (Ring.queue s.ring).length) :
    ∃ r, Leads P s { s with mpc := .inHead, ring := r } ∧ Ring.Quiet P.ring r ∧
      Ring.queue r = (Ring.queue s.ring).drop 4 ∧ r.rdst.length = P.buf ∧
      r.rdst.take 4 = (Ring.queue s.ring).take 4 := by
  have hb := hreach.frames.buf
  obtain ⟨r, h1, h2, h3, h4⟩ := Ring.seqRead_ok hN hq (dst := s.buf) (n := 4) (by omega) hlen
  obtain ⟨r0, h5, h6⟩ := Option.bind_eq_some_iff.1 h1
  have h7 := (leads_runR { s with mpc := .inHead } hc _ h6 (hq.calls.step h5) (by
    obtain ⟨_, _, rfl⟩ := ring_callR h5
    show 4 ≤ s.buf.length
    omega))
  have hst : step P .message s = some { s with mpc := .inHead, ring := r0 } := by
    have h5' : Ring.step P.ring (.callR s.buf (min 4 s.buf.length)) s.ring = some r0 := by
      rw [Nat.min_eq_left (by omega)]; exact h5
    rw [step_message hc]
    simp only [messageStep, hm, hca, readN]
    simp only [show (4 : Int).toNat = 4 from rfl, h5']
    rfl
  have hl : Leads P s { s with mpc := .inHead, ring := r } := .step .message hst h7.1
  have hr' := hl.reach hreach
  have hrd : r.rdst.length = P.buf := hr'.frames.head rfl
  refine ⟨r, hl, h2, h3, hrd, ?_⟩
  obtain ⟨bs, h8, h9, h10⟩ := (hr'.stream hP).head rfl
  obtain ⟨_, h11⟩ := (hreach.stream hP).out (by simp [hm])
  have h12 : bs = s.ring.taken := by
    have e1 : ∀ {fs : List (List Byte)} {b1 b2 : List Byte}, Parsed fs b1 → Parsed fs b2 → b1.length = b2.length →
        b1 <+: b2 → b1 = b2 := fun _ _ hl hp => hp.eq_of_length hl
    have h10' : s.ring.taken ++ (Ring.queue s.ring).take 4 = bs ++ r.rdst.take (min 4 r.rdst.length) := by
      rw [← h4]
      have := h10
      rwa [if_pos h7.2] at this
    have hlen' : bs.length = s.ring.taken.length := by
      have := congrArg List.length h10'
      simp at this
      omega
    exact (List.append_inj_left h10' hlen'.symm).symm
  have h10' : s.ring.taken ++ (Ring.queue s.ring).take 4 = bs ++ r.rdst.take (min 4 r.rdst.length) := by
    rw [← h4]
    have := h10
    rwa [if_pos h7.2] at this
  rw [h12] at h10'
  rw [Nat.min_eq_left (by omega)] at h10'
  exact (List.append_cancel_left h10').symm

theorem headSize_int32 {bs : List Byte} {v : Int32} (h : 4 ≤ bs.length) (hv : bs.take 4 = Wire.int32 v) :
    headSize bs = some v.toInt := by
  obtain ⟨v', e1, e2⟩ := headSize_eq (buf := bs) h
  rw [hv] at e1
  rw [e2]
  have e3 : v = v' := by
    rw [wire_int32, wire_int32] at e1
    have h1 := beUint32_be32 v.toBitVec []
    have h2 := beUint32_be32 v'.toBitVec []
    rw [e1, h2, Option.some.injEq] at h1
    exact Int32.toBitVec_inj.1 h1.symm
  rw [e3]

/-- `messageLoop` has read a size and reads the payload. -/
theorem leads_body {P : Params} (hN : 2 ≤ P.ring) (hP : 4 ≤ P.buf) {s : State} (hreach : Reach P Any s)
    (hc : s.crashed = false) (hm : s.mpc = .inHead) (hq : Ring.Quiet P.ring s.ring) {v : Int32}
    (hv : s.ring.rdst.take 4 = Wire.int32 v) (hfit : v.toInt ≤ P.buf)
    (hlen : v.toInt.toNat ≤ (Ring.queue s.ring).length) :
    ∃ r, Leads P s { s with mpc := .inBody v.toInt, buf := s.ring.rdst, ring := r } ∧ Ring.Quiet P.ring r ∧
      Ring.queue r = (Ring.queue s.ring).drop v.toInt.toNat ∧ r.rdst.length = P.buf ∧
      r.rdst.take v.toInt.toNat = (Ring.queue s.ring).take v.toInt.toNat := by
  have hb : s.ring.rdst.length = P.buf := hreach.frames.head hm
  obtain ⟨r, h1, h2, h3, h4⟩ := Ring.seqRead_ok hN hq (dst := s.ring.rdst) (n := v.toInt.toNat)
    (by omega) hlen
  obtain ⟨r0, h5, h6⟩ := Option.bind_eq_some_iff.1 h1
  have h7 := (leads_runR { s with mpc := .inBody v.toInt, buf := s.ring.rdst } hc _ h6 (hq.calls.step h5) (by
    obtain ⟨_, _, rfl⟩ := ring_callR h5
    show v.toInt.toNat ≤ s.ring.rdst.length
    omega))
  have hs : headSize s.ring.rdst = some v.toInt := headSize_int32 (by omega) hv
  have hst : step P .message s = some { s with mpc := .inBody v.toInt, buf := s.ring.rdst, ring := r0 } := by
    have h5' : Ring.step P.ring (.callR (room s.ring.rdst v.toInt) (min v.toInt.toNat (s.ring.rdst.length + 1))) s.ring =
        some r0 := by
      rw [room, if_neg (by omega), Nat.min_eq_left (by omega)]; exact h5
    rw [step_message hc]
    simp only [messageStep, hm, hq.rpc, hs, readN, h5']
    rfl
  have hl : Leads P s { s with mpc := .inBody v.toInt, buf := s.ring.rdst, ring := r } := .step .message hst h7.1
  have hr' := hl.reach hreach
  have hrd : r.rdst.length = P.buf := hr'.frames.length rfl (by
    show v.toInt ≤ s.ring.rdst.length
    omega)
  refine ⟨r, hl, h2, h3, hrd, ?_⟩
  obtain ⟨bs, v', h8, h9, h10, h11⟩ := (hr'.stream hP).body v.toInt rfl
  have h12 : s.ring.taken ++ (Ring.queue s.ring).take v.toInt.toNat =
      bs ++ Wire.int32 v' ++ r.rdst.take v.toInt.toNat := by
    rw [← h4]
    have := h11
    rw [if_pos h7.2] at this
    rw [hrd, Nat.min_eq_left (by omega)] at this
    exact this
  have hlen' : s.ring.taken.length = (bs ++ Wire.int32 v').length := by
    have := congrArg List.length h12
    rw [List.length_append, List.length_append, List.length_take, List.length_take] at this
    omega
  exact (List.append_inj_right h12 hlen').symm

/-- `messageLoop` has read a size larger than its buffer and reads until there is no more room. -/
theorem leads_over {P : Params} (hN : 2 ≤ P.ring) (hP : 4 ≤ P.buf) {s : State} (hreach : Reach P Any s)
    (hc : s.crashed = false) (hm : s.mpc = .inHead) (hq : Ring.Quiet P.ring s.ring) {v : Int32}
    (hv : s.ring.rdst.take 4 = Wire.int32 v) (hbig : (P.buf : Int) < v.toInt)
    (hlen : P.buf + 1 ≤ (Ring.queue s.ring).length) :
    ∃ r, Leads P s { s with mpc := .inBody v.toInt, buf := s.ring.rdst, ring := r, crashed := true } := by
  have hb : s.ring.rdst.length = P.buf := hreach.frames.head hm
  obtain ⟨r, h1, -⟩ := Ring.seqRead_ok hN hq (dst := s.ring.rdst ++ [0]) (n := P.buf + 1) (by simp [hb]) hlen
  obtain ⟨r0, h5, h6⟩ := Option.bind_eq_some_iff.1 h1
  have hs : headSize s.ring.rdst = some v.toInt := headSize_int32 (by omega) hv
  have hst : step P .message s = some { s with mpc := .inBody v.toInt, buf := s.ring.rdst, ring := r0 } := by
    have h5' : Ring.step P.ring (.callR (room s.ring.rdst v.toInt) (min v.toInt.toNat (s.ring.rdst.length + 1))) s.ring =
        some r0 := by
      rw [room, if_pos (by omega), Nat.min_eq_right (by omega), hb]; exact h5
    rw [step_message hc]
    simp only [messageStep, hm, hq.rpc, hs, readN, h5']
    rfl
  obtain ⟨_, _, rfl⟩ := ring_callR h5
  obtain ⟨r'', h7⟩ := leads_full _ (s := { s with mpc := .inBody v.toInt, buf := s.ring.rdst, ring := _ }) hc h6
    ⟨by show P.buf + 1 = s.ring.rdst.length + 1; rw [hb], .inl rfl⟩
  exact ⟨r'', .step .message hst h7⟩

end Kafka.Conn
