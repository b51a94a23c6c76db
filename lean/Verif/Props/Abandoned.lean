import Verif.Props.Sizes
/-!
C83: a connection that the peer has closed.
-/
set_option linter.unusedSimpArgs false

namespace Kafka.Props

open Conn

/-- The full claim: when the peer has closed the connection, or reading from it has failed in another way, both goroutines end and the
network connection is closed, although nobody calls `Close`. -/
def C83_statement (P : Params) : Prop :=
  ∀ st act, Exec P st act → Fair P st act → (∀ m, (st m).crashed = false) → ∀ n, (st n).lpc = .exited →
    ∃ m, n ≤ m ∧ (st m).mpc = .exited ∧ (st m).rawClosed = true

/-- In any execution: only a call of `Close` ends `messageLoop`, and closes the network connection and the ring buffer. -/
theorem C83_only {P : Params} {s : Conn.State} (h : Conn.Reach P Conn.Any s) (hc : ∀ k, s.closers k = .absent) :
    s.mpc ≠ .exited ∧ s.rawClosed = false ∧ s.ring.closed = false := by
  obtain ⟨h1, h2, h3⟩ := open_inv h hc
  exact ⟨fun hm => (by rw [exited_cancelled h hm] at h2; cases h2), h3, h1⟩

section
variable {P : Params} {st : Nat → Conn.State} {act : Nat → Option Act}

/-- In the schedules of C25, when the peer has closed the connection and nobody calls `Close`, `messageLoop` comes to wait for ever, for bytes that
cannot come: it, its buffer, the ring buffer and the network connection are never given up. -/
theorem C83_leaks (hN : 2 ≤ P.ring) (hP : 4 ≤ P.buf) (h : Steady P st act) {n : Nat} (hx : (st n).lpc = .exited) :
    ∃ k, n ≤ k ∧ ∀ m, k ≤ m → (st m).ring.rpc = .waitSend ∧ (st m).rawClosed = false := by
  have hg := h.good hN hP
  have hl := h.exec.keep (I := fun s => s.lpc = .exited) (n := n) (fun m _ a _ ht hi => by
    generalize st (m + 1) = s' at ht
    cases ht <;> simp_all [State.set]) hx
  have hw : ∀ m, n ≤ m → (st m).ring.wpc = .idle := fun m hm => (hg m).reach.writer (by rw [hl m hm]; simp)
  have hgo : ∀ m, (st m).mpc ≠ .exited := fun m => (C83_only (h.exec.reach m) (h.closers m)).1
  obtain ⟨B, hB⟩ : ∃ B, B = (st n).received.length := ⟨_, rfl⟩
  have hrec := h.exec.keep (I := fun s => s.received.length = B) (n := n) (fun m hm a _ ht hi => by
    have h1 := hl m hm
    generalize st (m + 1) = s' at ht
    cases ht <;> simp_all [State.set]) hB.symm
  have hpub : ∀ m, n ≤ m → (st m).ring.pub ≤ B := fun m hm => by
    have h1 := (hg m).pos.wpub (by rw [hw m hm]; rfl)
    have h2 := congrArg List.length ((hg m).stream.given.symm.trans (hg m).calls.given)
    rw [hw m hm] at h2
    simp [Ring.WPc.wrote] at h2
    have := hrec m hm
    omega
  obtain ⟨j, hj, hend⟩ := h.fair.stops' h.exec .message (togo B) (n := n) (fun m hm a ha ht =>
    (hg m).togo hP (fun hx hp => by
      subst hx
      have h1 := hpub m hm
      have h2 := (hg m).pos.rpub_le
      cases hr : (st m).ring.rres with
      | false => have := (hg m).fifo.rget hp hr; omega
      | true => have : Ring.Data (st m).ring := h.paced m _ ha hr hp
                unfold Ring.Data at this; omega)
      ht (hg (m + 1)).crashed (hg (m + 1)).closed (by
      rintro rfl
      have h1 := hw m hm
      generalize st (m + 1) = s' at ht
      cases ht with | ring _ r _ hr => simp [Ring.step, h1] at hr))
  obtain ⟨i, hi, hr⟩ := h.fair.freeR hP h.exec (fun m => (hg m).crashed) j
  have h0 : (st i).ring.rpc = .waitSend :=
    Classical.byContradiction fun hy => (hend i hi).1 ((hg i).canGo hy hr (hgo i))
  refine ⟨i, by omega, fun m hm => ⟨?_, (C83_only (h.exec.reach m) (h.closers m)).2.1⟩⟩
  exact h.exec.keep (I := fun s => s.ring.rpc = .waitSend) (n := i) (fun m hm a ha ht hi => by
    rw [ht.rpc ((hend m (by omega)).2 a ha)]; exact hi) h0 m hm

/-- C36 after the peer has closed the connection: calls, also those made later, return replies that had been received whole, and no others.  The others
wait for ever, unless writing their request fails. -/
theorem C36_gone (hN : 2 ≤ P.ring) (hP : 4 ≤ P.buf) (h : Steady P st act) {n : Nat} (hx : (st n).lpc = .exited) {m c : Nat} (hm : n ≤ m)
    {d : Decoder} (hd : ((st m).calls c).pc = .done (.reply d)) :
    ∃ p ∈ splitStream (st n).received, Wire.int32 ((st m).calls c).id <+: p ∧ Given P.buf p d := by
  have hr := h.exec.keep (I := fun s => s.lpc = .exited ∧ s.received = (st n).received) (n := n) (fun m _ a _ ht hi => by
    generalize st (m + 1) = s' at ht
    cases ht <;> simp_all [State.set]) ⟨hx, rfl⟩ m hm
  have := C54_partial hN hP (st m) (h.reach m) c d hd
  rwa [hr.2] at this

/-- What is left: `readLoop` ends; and the rest does, once `Close` is called (C53).  Missing: without `Close` nothing else ends (`C83_only`, `C83_leaks`). -/
theorem C83_partial (hP : 4 ≤ P.buf) (h : Exec P st act) (hf : Fair P st act) (hc : ∀ m, (st m).crashed = false) {n k : Nat}
    (hk : (st n).closers k ≠ .absent) :
    ∃ m, n ≤ m ∧ (st m).mpc = .exited ∧ (st m).lpc = .exited ∧ (st m).rawClosed = true := by
  obtain ⟨m, hm, hd⟩ := C53_fair hP h hf hk
  have hd := hd.resolve_left (by rw [hc m]; simp)
  obtain ⟨h1, h2, h3, _⟩ := C53_ended (h.reach m) hd
  exact ⟨m, hm, h1, h2, h3⟩

end

/-- A call waits for its reply and `messageLoop` for data; the peer has closed the connection. -/
structure Left (s : Conn.State) : Prop where
  crashed : s.crashed = false
  closers : ∀ k, s.closers k = .absent
  raw : s.rawClosed = false
  count : s.count ≤ 2 ^ 32
  mpc : s.mpc = .inHead
  rpc : s.ring.rpc = .waitSend
  wpc : s.ring.wpc = .idle
  open_ : s.ring.closed = false
  lpc : s.lpc = .exited
  call : (s.calls 0).pc = .recv ∧ (s.calls 0).chan = none
  others : ∀ c, (s.calls (c + 1)).pc = .absent

theorem Left.stops {P : Params} {s : Conn.State} (h : Left s) (q : Proc) : ¬CanGo P s q := by
  intro hq
  cases q with
  | message =>
    obtain ⟨a, ha, hst⟩ := hq
    cases a <;> simp [Act.ofMessage] at ha
    case message => simp [Conn.step, h.crashed, messageStep, h.mpc, h.rpc] at hst
    case ring a =>
      cases a <;> simp [Ring.Action.ofReader] at ha <;>
        simp [Conn.step, h.crashed, full, inRing, Ring.step, Ring.rStep, h.rpc, h.wpc, h.open_] at hst
  | read =>
    obtain ⟨⟨a, ha, hst⟩, _⟩ := hq
    cases a <;> simp [Act.ofRead] at ha
    case ring a => cases a <;> simp [Ring.Action.ofWriter] at ha <;>
      simp [Conn.step, h.crashed, inRing, Ring.step, Ring.wStep, h.rpc, h.wpc, h.open_] at hst
    all_goals simp [Conn.step, h.crashed, h.lpc, h.wpc] at hst
  | call c =>
    rcases hq with hq | ⟨hq, _⟩
    · rw [step_call h.crashed] at hq
      match c with
      | 0 => simp [callStep, h.call.1, h.call.2] at hq
      | c + 1 => simp [callStep, h.others c] at hq
    · rw [h.raw] at hq; cases hq
  | close k => exact hq.1 (h.closers k)

theorem left_run {P : Params} (hN : 2 ≤ P.ring) (hP : 4 ≤ P.buf) : RunsTo P (PacedConn P) Left peerCloses (Conn.init P) := by
  obtain ⟨N, B⟩ := P
  obtain ⟨M, rfl⟩ := Nat.exists_eq_add_of_le' hN
  obtain ⟨B, rfl⟩ := Nat.exists_eq_add_of_le' hP
  have ew : Wire.int32 1 = [0, 0, 0, 1] := by rw [wire_int32]; rfl
  unfold peerCloses callDo Conn.init Ring.init sampleJob
  simp only [List.replicate, List.cons_append, List.nil_append]
  iterate 11 refine ⟨trivial, _, (by simp [Conn.step, callStep, State.set, upd, ew]; rfl), ?_⟩
  iterate 6 refine ⟨by simp [PacedConn, Ring.Paced], _, (by
    simp [Conn.step, messageStep, readN, inRing, Ring.step, Ring.rStep, Ring.rLoop, Ring.rReturn, Ring.incr]; rfl), ?_⟩
  refine ⟨trivial, _, (by simp [Conn.step]; rfl), ?_⟩
  exact ⟨rfl, fun _ => rfl, rfl, by show 1 ≤ 2 ^ 32; decide, rfl, rfl, rfl, rfl, rfl, ⟨rfl, rfl⟩, fun _ => rfl⟩

/-- A non-trivial case of `C83_leaks`, for all sizes: the peer closes the connection while a call waits for its reply. -/
theorem left_example {P : Params} (hN : 2 ≤ P.ring) (hP : 4 ≤ P.buf) : ∃ st act, Steady P st act ∧
    ∃ n, (st n).lpc = .exited ∧ ((st n).calls 0).pc = .recv := by
  obtain ⟨st, act, hz, g1, g2, g3, g4⟩ := exec_of_runs .init (left_run hN hP) (fun s hs => hs.stops)
  obtain ⟨g5, g6, g7⟩ := held g1 (fun m hm => (g4 m hm).crashed) (fun m hm => (g4 m hm).closers) (fun m hm => (g4 m hm).count)
  exact ⟨st, act, steady_of g1 g2 g3 g5 g6 g7, _, (g4 _ (Nat.le_refl _)).lpc, (g4 _ (Nat.le_refl _)).call.1⟩

/-- C83 is false, for all sizes. -/
theorem C83_fails {P : Params} (hN : 2 ≤ P.ring) (hP : 4 ≤ P.buf) : ¬ C83_statement P := by
  intro h
  obtain ⟨st, act, hs, n, hn, _⟩ := left_example hN hP
  obtain ⟨m, _, hm, _⟩ := h st act hs.exec hs.fair hs.crashed n hn
  exact (C83_only (hs.exec.reach m) (hs.closers m)).1 hm

end Kafka.Props
