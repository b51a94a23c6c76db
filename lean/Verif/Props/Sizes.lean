import Verif.Props.Whole
import Verif.Props.Flow

/-!
C51, C61, C65 and C77 are false, or need their assumptions, at every size of the buffers: also at those in the code.
-/
set_option linter.unusedSimpArgs false

namespace Kafka.Props

open Conn

/-- The reply comes byte by byte, while `messageLoop` waits. -/
def trickles : List Act :=
  [.message] ++ List.replicate 5 (.ring .r) ++
    [0, 0, 0, 4, 0, 0, 0, 1].flatMap fun b => [.read [b], .ring .w, .ring .w, .ring .w, .ring .w, .readNext]

theorem trickles_run {P : Params} (hN : 16 ≤ P.ring) (hP : 8 ≤ P.buf) : ∃ s, Conn.Reach P (PacedConn P) s ∧ HasSent s ∧
    RunsTo P (PacedConn P) (fun s => AtRest s ∧ s.received = [0, 0, 0, 4, 0, 0, 0, 1] ∧ (s.calls 0).pc = .recv ∧
      (s.calls 0).id = 1 ∧ s.frames = [] ∧ s.ring.pub = 8) trickles s := by
  obtain ⟨N, B⟩ := P
  obtain ⟨M, rfl⟩ := Nat.exists_eq_add_of_le' hN
  obtain ⟨B, rfl⟩ := Nat.exists_eq_add_of_le' hP
  have ew : Wire.int32 1 = [0, 0, 0, 1] := by rw [wire_int32]; rfl
  refine RunsTo.reach (as := callDo 0) .init ?_
  unfold callDo Conn.init Ring.init sampleJob trickles
  simp only [List.replicate, List.cons_append, List.nil_append, List.flatMap_cons, List.flatMap_nil]
  iterate 11 refine ⟨trivial, _, (by simp [Conn.step, callStep, State.set, upd, ew]; rfl), ?_⟩
  refine ⟨⟨by simp, rfl, rfl⟩, ?_⟩
  iterate 6 refine ⟨by simp [PacedConn, Ring.Paced], _, (by
    simp [Conn.step, messageStep, readN, inRing, Ring.step, Ring.rStep, Ring.rLoop, Ring.rReturn, Ring.incr]; rfl), ?_⟩
  iterate 48 refine ⟨by simp [PacedConn, Ring.Paced], _, (by
      simp [Conn.step, inRing, Ring.step, Ring.wStep, Ring.wLoop, Ring.wReturn, Ring.incr]; rfl), ?_⟩
  exact ⟨⟨rfl, fun _ => rfl, rfl, by show 1 ≤ 2 ^ 32; decide, rfl, rfl, rfl, rfl, rfl, .inl ⟨rfl, rfl⟩, fun _ => rfl⟩, rfl, rfl,
    rfl, rfl, rfl⟩

theorem steady_of {P : Params} {st : Nat → Conn.State} {act : Nat → Option Act} (h1 : Exec P st act) (h2 : Fair P st act)
    (h3 : Always P (PacedConn P) st act) (h4 : ∀ m, (st m).crashed = false) (h5 : ∀ m k, (st m).closers k = .absent)
    (h6 : Apart P st) : Steady P st act :=
  ⟨h1, h2, h3.1, h3.2, h4, h5, h6⟩

/-- What holds at the end has held before. -/
theorem held {P : Params} {st : Nat → Conn.State} {act : Nat → Option Act} (h1 : Exec P st act) {L : Nat}
    (hc : ∀ m, L ≤ m → (st m).crashed = false) (hk : ∀ m, L ≤ m → ∀ k, (st m).closers k = .absent)
    (hn : ∀ m, L ≤ m → (st m).count ≤ 2 ^ 32) :
    (∀ m, (st m).crashed = false) ∧ (∀ m k, (st m).closers k = .absent) ∧ Apart P st := by
  refine ⟨fun n => ?_, fun n k => ?_, .of_count h1 fun n => ?_⟩
  · cases hx : (st n).crashed with
    | false => rfl
    | true =>
      have h5 := crashed_stays h1 hx (max n L) (Nat.le_max_left _ _)
      rw [hc _ (Nat.le_max_right _ _)] at h5
      cases h5
  · refine Classical.byContradiction fun hx => ?_
    exact h1.keep (I := fun s => s.closers k ≠ .absent) (n := n) (fun m _ a _ ht hi => by
      generalize st (m + 1) = s' at ht
      cases ht <;> simp only [State.set] <;> grind) hx (max n L) (Nat.le_max_left _ _) (hk _ (Nat.le_max_right _ _) k)
  · have h5 := h1.keep (I := fun s => (st n).count ≤ s.count) (n := n) (fun m _ a _ ht hi => by
      generalize st (m + 1) = s' at ht
      cases ht <;> simp [State.set] <;> omega) (Nat.le_refl _) (max n L) (Nat.le_max_left _ _)
    exact Nat.le_trans h5 (hn _ (Nat.le_max_right _ _))

/-- The full claim of C65 is false: a broker answers, byte by byte, and the call waits for ever. -/
theorem C65_fails {P : Params} (hN : 16 ≤ P.ring) (hP : 8 ≤ P.buf) : ¬C65_statement P (fun st act _ => Steady P st act) := by
  intro hst
  obtain ⟨s, h1, h2, h3⟩ := trickles_run hN hP
  obtain ⟨st, act, g1, g2, g3, g4, g5, g6, g7, g8, g9, g10, g11⟩ := exec_answered h1 h2 h3
  obtain ⟨m, _, hm⟩ := hst st act g1 g2 g4 g5 g6 g7 0 0 (steady_of g1 g2 g3 g4 g5 g6) g8 g9
  have hdone : ∃ o, ((st m).calls 0).pc = .done o := by
    rcases hm with ⟨d, h4, _⟩ | ⟨e, h4, _⟩ <;> exact ⟨_, h4⟩
  obtain ⟨o, ho⟩ := hdone
  have hk := g1.keep (I := fun s => (s.calls 0).pc = .done o) (n := m) (fun j _ a _ ht hi => by
    generalize st (j + 1) = s' at ht
    cases ht <;> simp only [State.set] <;> grind) ho (max m trickles.length) (Nat.le_max_left _ _)
  rw [(g11 _ (Nat.le_max_right m trickles.length)).1] at hk
  cases hk

/-- The full claim of C51 is false: in a fair execution in which the peer sends its reply byte by byte, and no more, the call
waits for ever for a reply that is there. -/
theorem C51_fair_fails {P : Params} (hN : 16 ≤ P.ring) (hP : 8 ≤ P.buf) : ¬C51_fair_statement P (fun _ _ _ => True) := by
  intro hst
  obtain ⟨s, h1, h2, h3⟩ := trickles_run hN hP
  obtain ⟨st, act, hz, g1, g2, g3, g4⟩ := exec_of_runs h1 h3 (fun s hs => hs.1.stops)
  obtain ⟨g5, g6, g7⟩ := held g1 (fun m hm => (g4 m hm).1.crashed) (fun m hm => (g4 m hm).1.closers) (fun m hm => (g4 m hm).1.count)
  have hst := hst st act (steady_of g1 g2 g3 g5 g6 g7) trickles.length trivial 0
  obtain ⟨e1, e2, e3, e4, e5, e6⟩ := g4 _ (Nat.le_refl _)
  obtain ⟨m, d, h4, h5, _⟩ := hst e3 [0, 0, 0, 1] (by rw [visible_eq e2 e5 e6]; simp)
    (by rw [e4, wire_int32]; exact List.prefix_rfl)
  rw [(g4 m h4).2.2.1] at h5
  cases h5

/-! ## Both loops wait -/

theorem RunsTo.append {P : Params} {ok : Conn.State → Act → Prop} {p : Conn.State → Prop} {bs : List Act} :
    ∀ {as : List Act} {s : Conn.State}, RunsTo P ok (RunsTo P ok p bs) as s → RunsTo P ok p (as ++ bs) s
  | [], _, h => h
  | _ :: _, _, ⟨h1, s1, h2, h3⟩ => ⟨h1, s1, h2, h3.append⟩

theorem RunsTo.weaken {P : Params} {ok : Conn.State → Act → Prop} {p q : Conn.State → Prop} (hpq : ∀ s, p s → q s) :
    ∀ {as : List Act} {s : Conn.State}, RunsTo P ok p as s → RunsTo P ok q as s
  | [], _, h => hpq _ h
  | _ :: _, _, ⟨h1, s1, h2, h3⟩ => ⟨h1, s1, h2, h3.weaken hpq⟩

/-- `messageLoop` has found nothing and is about to wait; `i` bytes have been received since, the first eight of which are the
reply to a call. -/
structure Filled (i : Nat) (s : Conn.State) : Prop where
  crashed : s.crashed = false
  closers : ∀ k, s.closers k = .absent
  raw : s.rawClosed = false
  count : s.count ≤ 2 ^ 32
  lpc : s.lpc = .read
  wpc : s.ring.wpc = .idle
  rpc : s.ring.rpc = .waitCas
  rset : s.ring.rset = false
  wset : s.ring.wset = false
  wres : s.ring.wres = false
  rres : s.ring.rres = false
  open_ : s.ring.closed = false
  next : s.ring.next = i
  start : s.ring.start = 0
  mpc : s.mpc = .inHead
  frames : s.frames = []
  call : (s.calls 0).pc = .recv ∧ (s.calls 0).chan = none ∧ (s.calls 0).id = 1
  others : ∀ c, (s.calls (c + 1)).pc = .absent
  received : [0, 0, 0, 4, 0, 0, 0, 1] <+: s.received

/-- One byte more is received. -/
def oneByte : List Act := [.read [0], .ring .w, .ring .w, .ring .w, .ring .w, .readNext]

theorem Filled.more {P : Params} (hP : 1 ≤ P.buf) {p : Conn.State → Prop} {i : Nat} {s : Conn.State} (h : Filled i s)
    (hi : i + 2 < P.ring) (hp : ∀ s', Filled (i + 1) s' → p s') : RunsTo P (PacedConn P) p oneByte s := by
  have e1 : ¬i + 1 = P.ring := by omega
  have e2 : ¬i + 1 + 1 = P.ring := by omega
  obtain ⟨h1, h2, h3, h4, h5, h6, h7, h8, h9, h10, h11, h12, h13, h14, h15, h16, h17, h18, h19⟩ := h
  unfold oneByte
  iterate 6 refine ⟨by simp [PacedConn, Ring.Paced, h10], _, (by
    simp [Conn.step, inRing, Ring.step, Ring.wStep, Ring.wLoop, Ring.wReturn, Ring.incr, h1, h3, h5, h6, h13, h14, e1, e2, hP]
    rfl), ?_⟩
  refine hp _ ⟨?_, ?_, ?_, ?_, ?_, ?_, ?_, ?_, ?_, ?_, ?_, ?_, ?_, ?_, ?_, ?_, ?_, ?_, h19.trans (List.prefix_append _ _)⟩ <;>
    first | assumption | rfl

/-- So many bytes more. -/
theorem Filled.fill {P : Params} (hP : 1 ≤ P.buf) {p : Conn.State → Prop} {bs : List Act} : ∀ (k : Nat) {i : Nat} {s : Conn.State},
    Filled i s → i + k + 2 ≤ P.ring → (∀ s', Filled (i + k) s' → RunsTo P (PacedConn P) p bs s') →
    RunsTo P (PacedConn P) p ((List.replicate k oneByte).flatten ++ bs) s
  | 0, _, _, h, _, hp => hp _ h
  | k + 1, i, s, h, hk, hp => by
    rw [List.replicate_succ, List.flatten_cons, List.append_assoc]
    exact RunsTo.append (h.more hP (by omega) fun s' h' => h'.fill hP k (by omega) fun s'' h'' =>
      hp s'' (by rwa [Nat.add_assoc, Nat.add_comm 1] at h''))

/-- Both loops wait in the ring buffer, and a call for a reply that has been received. -/
structure BothWait (s : Conn.State) : Prop where
  crashed : s.crashed = false
  closers : ∀ k, s.closers k = .absent
  raw : s.rawClosed = false
  count : s.count ≤ 2 ^ 32
  lpc : s.lpc = .inWrite
  wpc : s.ring.wpc = .waitSend
  rpc : s.ring.rpc = .waitSend
  open_ : s.ring.closed = false
  mpc : s.mpc = .inHead
  frames : s.frames = []
  call : (s.calls 0).pc = .recv ∧ (s.calls 0).chan = none ∧ (s.calls 0).id = 1
  others : ∀ c, (s.calls (c + 1)).pc = .absent
  received : [0, 0, 0, 4, 0, 0, 0, 1] <+: s.received

/-- The last byte there is room for, and `messageLoop` goes on. -/
def lastByte : List Act := [.read [0]] ++ List.replicate 7 (.ring .w) ++ [.ring .r]

theorem Filled.last {P : Params} (hP : 1 ≤ P.buf) {i : Nat} {s : Conn.State} (h : Filled i s) (hi : i + 2 = P.ring) :
    RunsTo P (PacedConn P) BothWait lastByte s := by
  have e1 : ¬i + 1 = P.ring := by omega
  have e2 : i + 1 + 1 = P.ring := by omega
  obtain ⟨h1, h2, h3, h4, h5, h6, h7, h8, h9, h10, h11, h12, h13, h14, h15, h16, h17, h18, h19⟩ := h
  unfold lastByte
  simp only [List.replicate, List.cons_append, List.nil_append]
  iterate 9 refine ⟨by simp [PacedConn, Ring.Paced, h10, h11], _, (by
    simp [Conn.step, inRing, full, Ring.step, Ring.wStep, Ring.rStep, Ring.wLoop, Ring.wReturn, Ring.wReleased, Ring.incr, h1, h3, h5,
      h6, h7, h8, h9, h13, h14, e1, e2, hP]
    rfl), ?_⟩
  refine ⟨?_, ?_, ?_, ?_, ?_, ?_, ?_, ?_, ?_, ?_, ?_, ?_, h19.trans (List.prefix_append _ _)⟩ <;> first | assumption | rfl

/-- Nothing can go on. -/
theorem BothWait.stops {P : Params} {s : Conn.State} (h : BothWait s) (q : Proc) : ¬CanGo P s q := by
  intro hq
  cases q with
  | message =>
    obtain ⟨a, ha, hst⟩ := hq
    cases a <;> simp [Act.ofMessage] at ha
    case message => simp [Conn.step, h.crashed, messageStep, h.mpc, h.rpc] at hst
    case ring a =>
      cases a <;> simp [Ring.Action.ofReader] at ha <;>
        simp [Conn.step, h.crashed, full, inRing, Ring.step, Ring.rStep, h.rpc, h.wpc, h.open_] at hst
  | read =>
    obtain ⟨⟨a, ha, hst⟩, _⟩ := hq
    cases a <;> simp [Act.ofRead] at ha
    case ring a => cases a <;> simp [Ring.Action.ofWriter] at ha <;>
      simp [Conn.step, h.crashed, inRing, Ring.step, Ring.wStep, h.rpc, h.wpc, h.open_] at hst
    all_goals simp [Conn.step, h.crashed, h.lpc, h.wpc] at hst
  | call c =>
    rcases hq with hq | ⟨hq, _⟩
    · rw [step_call h.crashed] at hq
      match c with
      | 0 => simp [callStep, h.call.1, h.call.2.1] at hq
      | c + 1 => simp [callStep, h.others c] at hq
    · rw [h.raw] at hq; cases hq
  | close k => exact hq.1 (h.closers k)

/-- A call; `messageLoop` finds nothing; the reply comes. -/
def bothStart : List Act :=
  callDo 0 ++ [.message] ++ List.replicate 4 (.ring .r) ++ [.read [0, 0, 0, 4, 0, 0, 0, 1]] ++ List.replicate 12 (.ring .w) ++
    [.readNext]

/-- A call; `messageLoop` finds nothing, and before it begins to wait the reply comes in one piece, and as many bytes more as
there is room for: `readLoop` finds the buffer full and nobody to wake, and waits; then `messageLoop` waits too. -/
def bothWait (N : Nat) : List Act := bothStart ++ ((List.replicate (N - 10) oneByte).flatten ++ lastByte)

theorem bothWait_run {P : Params} (hN : 16 ≤ P.ring) (hP : 8 ≤ P.buf) :
    RunsTo P (PacedConn P) BothWait (bothWait P.ring) (Conn.init P) := by
  refine RunsTo.append ?_
  have ew : Wire.int32 1 = [0, 0, 0, 1] := by rw [wire_int32]; rfl
  suffices h : RunsTo P (PacedConn P) (Filled 8) bothStart (Conn.init P) by
    exact h.weaken fun s hs => hs.fill (by omega) (P.ring - 10) (by omega) fun s' hs' => hs'.last (by omega) (by omega)
  obtain ⟨N, B⟩ := P
  obtain ⟨M, rfl⟩ := Nat.exists_eq_add_of_le' hN
  obtain ⟨B, rfl⟩ := Nat.exists_eq_add_of_le' hP
  unfold bothStart callDo Conn.init Ring.init sampleJob
  simp only [List.replicate, List.cons_append, List.nil_append]
  iterate 11 refine ⟨trivial, _, (by simp [Conn.step, callStep, State.set, upd, ew]; rfl), ?_⟩
  iterate 5 refine ⟨by simp [PacedConn, Ring.Paced], _, (by
    simp [Conn.step, messageStep, readN, inRing, Ring.step, Ring.rStep, Ring.rLoop, Ring.rReturn, Ring.incr]; rfl), ?_⟩
  iterate 14 refine ⟨by simp [PacedConn, Ring.Paced], _, (by
      simp [Conn.step, inRing, Ring.step, Ring.wStep, Ring.wLoop, Ring.wReturn, Ring.incr]; rfl), ?_⟩
  refine ⟨?_, ?_, ?_, ?_, ?_, ?_, ?_, ?_, ?_, ?_, ?_, ?_, ?_, ?_, ?_, ?_, ?_, ?_, List.prefix_rfl⟩ <;>
    first | rfl | exact fun _ => rfl | exact ⟨rfl, rfl, rfl⟩ | (show 1 ≤ 2 ^ 32; decide)

/-- And the full claim is false, even for a reply that is received in one piece: in a fair execution of an open connection
the two loops wait for each other for ever. -/
theorem C51_deadlock_fails {P : Params} (hN : 16 ≤ P.ring) (hP : 8 ≤ P.buf) : ¬C51_received_statement P (fun _ act n =>
    ∃ m, m < n ∧ act m = some (.read [0, 0, 0, 4, 0, 0, 0, 1])) := by
  intro hst
  obtain ⟨st, act, hz, g1, g2, g3, g4, g8⟩ := exec_of_runs_act .init (bothWait_run hN hP) (fun s hs => hs.stops)
  obtain ⟨g5, g6, g7⟩ := held g1 (fun m hm => (g4 m hm).crashed) (fun m hm => (g4 m hm).closers) (fun m hm => (g4 m hm).count)
  have h0 := g4 _ (Nat.le_refl _)
  have hlen : bothStart.length = 30 := by decide
  obtain ⟨m, d, h4, h5, _⟩ := hst st act (steady_of g1 g2 g3 g5 g6 g7) (bothWait P.ring).length ⟨16, by
      rw [bothWait, List.length_append]; omega, by
      rw [g8, bothWait, List.getElem?_append_left (by omega)]; rfl⟩ 0 h0.call.1 [0, 0, 0, 1] (by
      obtain ⟨rest, hr⟩ := h0.received
      unfold pending
      rw [← hr, h0.frames, List.length_nil, List.drop_zero]
      rw [show [0, 0, 0, 4, 0, 0, 0, 1] ++ rest = Wire.int32 4 ++ ([0, 0, 0, 1] ++ rest) by rw [wire_int32]; rfl]
      rw [splitStream_frame 4 [0, 0, 0, 1] _ (by decide)]
      simp) (by rw [h0.call.2.2, wire_int32]; exact List.prefix_rfl)
  rw [(g4 m h4).call.1] at h5
  cases h5

/-! ## A peer that does not read -/

/-- The peer takes one byte of the request of call 0 and no more; call 1 waits for `writeLock`. -/
def peerStalls : List Act :=
  [.start 0 sampleJob] ++ List.replicate 6 (.call 0) ++ [.write 0 1, .start 1 sampleJob] ++ List.replicate 4 (.call 1) ++
    [.message] ++ List.replicate 5 (.ring .r)

/-- Nothing goes on. -/
structure Stalled (s : Conn.State) : Prop where
  crashed : s.crashed = false
  closers : ∀ k, s.closers k = .absent
  raw : s.rawClosed = false
  count : s.count ≤ 2 ^ 32
  lpc : s.lpc = .read
  wpc : s.ring.wpc = .idle
  rpc : s.ring.rpc = .waitSend
  open_ : s.ring.closed = false
  mpc : s.mpc = .inHead
  lock : s.writeLock = some 0
  call0 : (s.calls 0).pc = .writing [0, 0, 1]
  call1 : (s.calls 1).pc = .wlock
  others : ∀ c, (s.calls (c + 2)).pc = .absent

theorem Stalled.stops {P : Params} {s : Conn.State} (h : Stalled s) (q : Proc) : ¬CanGo P s q := by
  intro hq
  cases q with
  | message =>
    obtain ⟨a, ha, hst⟩ := hq
    cases a <;> simp [Act.ofMessage] at ha
    case message => simp [Conn.step, h.crashed, messageStep, h.mpc, h.rpc] at hst
    case ring a =>
      cases a <;> simp [Ring.Action.ofReader] at ha <;>
        simp [Conn.step, h.crashed, full, inRing, Ring.step, Ring.rStep, h.rpc, h.wpc, h.open_] at hst
  | read => have := hq.2 h.lpc; rw [h.raw] at this; cases this
  | call c =>
    rcases hq with hq | ⟨hq, _⟩
    · rw [step_call h.crashed] at hq
      match c with
      | 0 => simp [callStep, h.call0] at hq
      | 1 => simp [callStep, h.call1, h.lock] at hq
      | c + 2 => simp [callStep, h.others c] at hq
    · rw [h.raw] at hq; cases hq
  | close k => exact hq.1 (h.closers k)

/-- What the network is assumed to do in C61 is needed: if the peer stops reading, its first victim is the call that writes, and
all the others wait behind it for ever (there is no deadline). -/
theorem C61_stalls {P : Params} (hP : 4 ≤ P.buf) : ∃ st act, Exec P st act ∧ Fair P st act ∧ (∀ m, (st m).crashed = false) ∧
    ∃ n rest, rest ≠ [] ∧ ∀ m, n ≤ m → ((st m).calls 0).pc = .writing rest ∧ ((st m).calls 1).pc = .wlock := by
  have ew : Wire.int32 1 = [0, 0, 0, 1] := by rw [wire_int32]; rfl
  have h : RunsTo P Conn.Any Stalled peerStalls (Conn.init P) := by
    obtain ⟨N, B⟩ := P
    obtain ⟨B, rfl⟩ := Nat.exists_eq_add_of_le' hP
    unfold peerStalls Conn.init Ring.init sampleJob
    simp only [List.replicate, List.cons_append, List.nil_append]
    iterate 13 refine ⟨trivial, _, (by simp [Conn.step, callStep, State.set, upd, ew]; rfl), ?_⟩
    iterate 6 refine ⟨trivial, _, (by
      simp [Conn.step, messageStep, readN, inRing, Ring.step, Ring.rStep, Ring.rLoop, Ring.rReturn, Ring.incr]; rfl), ?_⟩
    refine ⟨?_, ?_, ?_, ?_, ?_, ?_, ?_, ?_, ?_, ?_, ?_, ?_, ?_⟩ <;>
      first | rfl | exact fun _ => rfl | (show 2 ≤ 2 ^ 32; decide)
  obtain ⟨st, act, hz, g1, g2, g3, g4⟩ := exec_of_runs .init h (fun s hs => hs.stops)
  obtain ⟨g5, _⟩ := held g1 (fun m hm => (g4 m hm).crashed) (fun m hm => (g4 m hm).closers) (fun m hm => (g4 m hm).count)
  exact ⟨st, act, g1, g2, g5, _, [0, 0, 1], by simp, fun m hm => ⟨(g4 m hm).call0, (g4 m hm).call1⟩⟩

/-! ## A writer that overtakes -/

/-- `j` bytes have been received, of which `messageLoop` has read two. -/
structure Lapping (P : Params) (j : Nat) (s : Conn.State) : Prop where
  crashed : s.crashed = false
  closers : ∀ k, s.closers k = .absent
  raw : s.rawClosed = false
  lpc : s.lpc = .read
  wpc : s.ring.wpc = .idle
  next : s.ring.next = j % P.ring
  start : s.ring.start = 2
  frames : s.frames = []
  received : s.received.length = j

theorem Lapping.more {P : Params} (hN : 0 < P.ring) (hP : 1 ≤ P.buf) {p : Conn.State → Prop} {j : Nat} {s : Conn.State}
    (h : Lapping P j s) (hj : (j + 2) % P.ring ≠ 2)
    (hp : ∀ s', Lapping P (j + 1) s' → s'.ring.rpc = s.ring.rpc → s'.ring.rset = s.ring.rset → s'.ring.wset = s.ring.wset → p s') :
    RunsTo P Conn.Any p oneByte s := by
  have e1 := Ring.incr_mod hN j
  have e2 := Ring.incr_mod hN (j + 1)
  obtain ⟨h1, h2, h3, h4, h5, h6, h7, h8, h9⟩ := h
  unfold oneByte
  iterate 6 refine ⟨trivial, _, (by
    simp [Conn.step, inRing, Ring.step, Ring.wStep, Ring.wLoop, Ring.wReturn, h1, h3, h4, h5, h6, h7, e1, e2, hj, hP]
    rfl), ?_⟩
  refine hp _ ⟨?_, ?_, ?_, ?_, ?_, ?_, ?_, ?_, by simp [h9]⟩ rfl rfl rfl <;> first | assumption | rfl

theorem Lapping.fill {P : Params} (hN : 0 < P.ring) (hP : 1 ≤ P.buf) {p : Conn.State → Prop} {bs : List Act} :
    ∀ (k : Nat) {j : Nat} {s : Conn.State}, Lapping P j s → (∀ i, i < k → (j + i + 2) % P.ring ≠ 2) →
    (∀ s', Lapping P (j + k) s' → s'.ring.rpc = s.ring.rpc → s'.ring.rset = s.ring.rset → s'.ring.wset = s.ring.wset →
      RunsTo P Conn.Any p bs s') →
    RunsTo P Conn.Any p ((List.replicate k oneByte).flatten ++ bs) s
  | 0, _, _, h, _, hp => hp _ h rfl rfl rfl
  | k + 1, j, s, h, hk, hp => by
    rw [List.replicate_succ, List.flatten_cons, List.append_assoc]
    exact RunsTo.append (h.more hN hP (hk 0 (by omega)) fun s' h' e1 e2 e3 => h'.fill hN hP k (fun i hi => by
      have := hk (i + 1) (by omega)
      rwa [show j + 1 + i + 2 = j + (i + 1) + 2 by omega]) fun s'' h'' e4 e5 e6 =>
        hp s'' (by rwa [Nat.add_assoc, Nat.add_comm 1] at h'') (e4.trans e1) (e5.trans e2) (e6.trans e3))

/-- `messageLoop` reads two bytes and publishes this. -/
def lapStart : List Act :=
  [.read [0, 0]] ++ List.replicate 6 (.ring .w) ++ [.readNext, .message] ++ List.replicate 5 (.ring .r)

/-- `readLoop` finds the buffer full and waits; `messageLoop` lets it go on, and it passes the place it should not. -/
def lapPass : List Act :=
  [.read [0]] ++ List.replicate 7 (.ring .w) ++ [.ring .r, .ring .handW, .ring .w, .readNext]

/-- A schedule without `Close`: `readLoop` waits for room, `messageLoop` lets it go on, and it overtakes. -/
def overtaking (N : Nat) : List Act :=
  lapStart ++ ((List.replicate (N - 2) oneByte).flatten ++ (lapPass ++ ((List.replicate (N - 1) oneByte).flatten ++ [])))

theorem lapStart_run {P : Params} (hN : 5 ≤ P.ring) (hP : 4 ≤ P.buf) : RunsTo P Conn.Any (fun s => Lapping P 2 s ∧
    s.ring.rpc = .relCas ∧ s.ring.rset = false ∧ s.ring.wset = false) lapStart (Conn.init P) := by
  obtain ⟨N, B⟩ := P
  obtain ⟨M, rfl⟩ := Nat.exists_eq_add_of_le' hN
  obtain ⟨B, rfl⟩ := Nat.exists_eq_add_of_le' hP
  unfold lapStart Conn.init Ring.init
  simp only [List.replicate, List.cons_append, List.nil_append]
  iterate 14 refine ⟨trivial, _, (by
    simp [Conn.step, messageStep, readN, full, inRing, Ring.step, Ring.wStep, Ring.wLoop, Ring.wReturn, Ring.rStep, Ring.rLoop,
      Ring.rReturn, Ring.incr]; rfl), ?_⟩
  refine ⟨⟨rfl, fun _ => rfl, rfl, rfl, rfl, ?_, rfl, rfl, rfl⟩, rfl, rfl, rfl⟩
  exact (Nat.mod_eq_of_lt (by show 2 < M + 5; omega)).symm

theorem Lapping.pass {P : Params} (hN : 5 ≤ P.ring) (hP : 4 ≤ P.buf) {p : Conn.State → Prop} {s : Conn.State}
    (h : Lapping P P.ring s) (e1 : s.ring.rpc = .relCas) (e2 : s.ring.rset = false) (e3 : s.ring.wset = false)
    (hp : ∀ s', Lapping P (P.ring + 1) s' → p s') : RunsTo P Conn.Any p lapPass s := by
  have i1 := Ring.incr_mod (N := P.ring) (by omega) P.ring
  have i2 := Ring.incr_mod (N := P.ring) (by omega) (P.ring + 1)
  have i3 : (P.ring + 1 + 1) % P.ring = 2 := by
    rw [show P.ring + 1 + 1 = P.ring + 2 by omega, Nat.add_mod_left]
    exact Nat.mod_eq_of_lt (by omega)
  rw [i3] at i2
  have hP' : 1 ≤ P.buf := by omega
  obtain ⟨h1, h2, h3, h4, h5, h6, h7, h8, h9⟩ := h
  unfold lapPass
  simp only [List.replicate, List.cons_append, List.nil_append]
  iterate 12 refine ⟨trivial, _, (by
    simp [Conn.step, inRing, full, Ring.step, Ring.wStep, Ring.wLoop, Ring.wReturn, Ring.wReleased, Ring.wWaited, Ring.rStep,
      h1, h3, h4, h5, h6, h7, e1, e2, e3, i1, i2, hP', -Nat.mod_self, -Nat.add_mod_left]
    rfl), ?_⟩
  refine hp _ ⟨?_, ?_, ?_, ?_, ?_, ?_, ?_, ?_, by simp [h9]⟩ <;> first | assumption | rfl

/-- The first part of C77 is also false of schedules without `Close`, if the ring buffer is larger than the buffers of the two
loops together, as in the code: twice as many bytes are received as there is room for, and no frame is read. -/
theorem C77_open_fails {P : Params} (hP : 4 ≤ P.buf) (hN : 2 * P.buf + 5 ≤ P.ring) : ¬∀ s, Conn.Reach P Conn.Any s →
    (∀ k, s.closers k = .absent) → s.received.length ≤ wireLength s.frames + P.ring + 2 * P.buf + 4 := by
  intro h
  have hr : RunsTo P Conn.Any (Lapping P (2 * P.ring)) (overtaking P.ring) (Conn.init P) := by
    refine RunsTo.append ((lapStart_run (by omega) hP).weaken fun s ⟨hs, e1, e2, e3⟩ => ?_)
    refine hs.fill (by omega) (by omega) (P.ring - 2) (fun i hi => ?_) fun s' hs' f1 f2 f3 => ?_
    · by_cases hx : 2 + i + 2 < P.ring
      · rw [Nat.mod_eq_of_lt hx]; omega
      · rw [show 2 + i + 2 = P.ring + (2 + i + 2 - P.ring) by omega, Nat.add_mod_left, Nat.mod_eq_of_lt (by omega)]; omega
    · refine RunsTo.append (Lapping.pass (by omega) hP (by rwa [show 2 + (P.ring - 2) = P.ring by omega] at hs') (f1.trans e1)
        (f2.trans e2) (f3.trans e3) fun s'' hs'' => ?_)
      refine hs''.fill (by omega) (by omega) (P.ring - 1) (fun i hi => ?_) fun s3 hs3 _ _ _ => ?_
      · rw [show P.ring + 1 + i + 2 = P.ring + (i + 3) by omega, Nat.add_mod_left]
        by_cases hx : i + 3 < P.ring
        · rw [Nat.mod_eq_of_lt hx]; omega
        · rw [show i + 3 = P.ring + (i + 3 - P.ring) by omega, Nat.add_mod_left, Nat.mod_eq_of_lt (by omega)]; omega
      · rwa [show P.ring + 1 + (P.ring - 1) = 2 * P.ring by omega] at hs3
  obtain ⟨s, h1, h2⟩ := RunsTo.reach .init hr
  have h3 := h s h1 h2.closers
  rw [h2.received, h2.frames] at h3
  simp [wireLength] at h3
  omega

/-- The sizes of the code are such sizes. -/
example : 16 ≤ actual.ring ∧ 8 ≤ actual.buf ∧ 2 * actual.buf + 5 ≤ actual.ring := by decide

end Kafka.Props
