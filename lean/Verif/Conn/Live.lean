import Verif.Conn.Lost
import Verif.Conn.Stream
import Verif.Ring.Close
/-!
Progress of the goroutines of a connection.
-/
set_option linter.unusedSimpArgs false

namespace Kafka.Conn

open Kafka

theorem step_call {P : Params} {s : State} (h : s.crashed = false) (c : Nat) :
    step P (.call c) s = callStep s c := by simp [step, h]

theorem step_message {P : Params} {s : State} (h : s.crashed = false) :
    step P .message s = messageStep P s := by simp [step, h]

/-- What releasing `readLock` leaves alone. -/
structure SameR (s s' : State) : Prop where
  crashed : s'.crashed = s.crashed
  writeLock : s'.writeLock = s.writeLock
  werr : s'.werr = s.werr
  cancelled : s'.cancelled = s.cancelled
  rawClosed : s'.rawClosed = s.rawClosed
  ring : s'.ring = s.ring
  lpc : s'.lpc = s.lpc
  closers : s'.closers = s.closers
  calls : ∀ c, (s.calls c).pc.holdsR = false → s'.calls c = s.calls c

theorem SameR.refl (s : State) : SameR s s := ⟨rfl, rfl, rfl, rfl, rfl, rfl, rfl, rfl, fun _ _ => rfl⟩

/-- Whoever holds `readLock` can go on to release it. -/
theorem free_read {P : Params} {s : State} (hl : Locks s) (hc : s.crashed = false) :
    ∃ s', Leads P s s' ∧ s'.readLock = none ∧ SameR s s' ∧ (s.mpc.holdsR = false → s'.mpc = s.mpc) := by
  have one : ∀ {s : State} (j : Nat), s.crashed = false → (s.calls j).pc = .runlock →
      ∃ s', Leads P s s' ∧ s'.readLock = none ∧ SameR s s' ∧ s'.mpc = s.mpc := by
    intro s j hc hp
    refine ⟨({ s with readLock := none }.set j { s.calls j with pc := .wlock }),
      .step (.call j) (by rw [step_call hc]; simp [callStep, hp]) (.refl _), rfl,
      ⟨rfl, rfl, rfl, rfl, rfl, rfl, rfl, rfl, fun c h => ?_⟩, rfl⟩
    simp only [State.set]
    split
    · rename_i he; subst he; rw [hp] at h; cases h
    · rfl
  have last : ∀ {s : State} (d : Decoder) (c : Option Nat), s.crashed = false → s.mpc = .runlock d c →
      ∃ s', Leads P s s' ∧ s'.readLock = none ∧ SameR s s' := by
    intro s d c hc hm
    cases c with
    | none =>
      exact ⟨{ s with readLock := none, mpc := .top },
        .step .message (by rw [step_message hc]; simp [messageStep, hm]) (.refl _), rfl,
        ⟨rfl, rfl, rfl, rfl, rfl, rfl, rfl, rfl, fun _ _ => rfl⟩⟩
    | some c =>
      exact ⟨{ s with readLock := none, mpc := .decode d c },
        .step .message (by rw [step_message hc]; simp [messageStep, hm]) (.refl _), rfl,
        ⟨rfl, rfl, rfl, rfl, rfl, rfl, rfl, rfl, fun _ _ => rfl⟩⟩
  have del : ∀ {s : State} (id : Int32) (d : Decoder) (c : Option Nat), s.crashed = false → s.mpc = .delete id d c →
      ∃ s', Leads P s s' ∧ s'.readLock = none ∧ SameR s s' := by
    intro s id d c hc hm
    obtain ⟨s', h1, h2, h3⟩ := last (s := { s with requests := upd s.requests id none, mpc := .runlock d c }) d c hc rfl
    exact ⟨s', .step .message (by rw [step_message hc]; simp [messageStep, hm]) h1, h2,
      ⟨h3.crashed, h3.writeLock, h3.werr, h3.cancelled, h3.rawClosed, h3.ring, h3.lpc, h3.closers, h3.calls⟩⟩
  cases hr : s.readLock with
  | none => exact ⟨s, .refl s, hr, .refl s, fun _ => rfl⟩
  | some o =>
    cases o with
    | call j =>
      have hh := (hl.callR j).2 hr
      cases hp : (s.calls j).pc with
      | insert =>
        obtain ⟨s', h1, h2, h3, h4⟩ := one (s := ({ s with requests := upd s.requests (s.calls j).id (some j) }.set j
          { s.calls j with pc := .runlock })) j hc (by simp [State.set])
        refine ⟨s', .step (.call j) (by rw [step_call hc]; simp [callStep, hp]) h1, h2,
          ⟨h3.crashed, h3.writeLock, h3.werr, h3.cancelled, h3.rawClosed, h3.ring, h3.lpc, h3.closers, ?_⟩,
          fun _ => h4⟩
        intro c hcc
        have hne : c ≠ j := by rintro rfl; rw [hp] at hcc; cases hcc
        rw [h3.calls c (by simp [State.set, hne, hcc])]
        simp [State.set, hne]
      | runlock =>
        obtain ⟨s', h1, h2, h3, h4⟩ := one j hc hp
        exact ⟨s', h1, h2, h3, fun _ => h4⟩
      | _ => rw [hp] at hh; cases hh
    | loop =>
      have hh := hl.loopR.2 hr
      cases hm : s.mpc with
      | lookup id d =>
        obtain ⟨s', h1, h2, h3⟩ := del (s := { s with mpc := .delete id d (s.requests id) }) id d _ hc rfl
        exact ⟨s', .step .message (by rw [step_message hc]; simp [messageStep, hm]) h1, h2,
          ⟨h3.crashed, h3.writeLock, h3.werr, h3.cancelled, h3.rawClosed, h3.ring, h3.lpc, h3.closers, h3.calls⟩,
          by simp [MPc.holdsR]⟩
      | delete id d c =>
        obtain ⟨s', h1, h2, h3⟩ := del id d c hc hm
        exact ⟨s', h1, h2, h3, by simp [MPc.holdsR]⟩
      | runlock d c =>
        obtain ⟨s', h1, h2, h3⟩ := last d c hc hm
        exact ⟨s', h1, h2, h3, by simp [MPc.holdsR]⟩
      | _ => rw [hm] at hh; cases hh

/-- What releasing `writeLock` leaves alone. -/
structure SameW (s s' : State) : Prop where
  crashed : s'.crashed = s.crashed
  rawClosed : s'.rawClosed = s.rawClosed
  calls : ∀ c, (s.calls c).pc.holdsW = false → s'.calls c = s.calls c

/-- Once `raw` is closed, whoever holds `writeLock` can go on to release it. -/
theorem free_write {P : Params} {s : State} (hl : Locks s) (hc : s.crashed = false) (hrc : s.rawClosed = true) :
    ∃ s', Leads P s s' ∧ s'.writeLock = none ∧ SameW s s' := by
  have un : ∀ {s : State} (j : Nat) (r : Option WErr), s.crashed = false → (s.calls j).pc = .wunlock r →
      ∃ s', Leads P s s' ∧ s'.writeLock = none ∧ SameW s s' := by
    intro s j r hc hp
    cases r with
    | none =>
      refine ⟨({ s with writeLock := none }.set j { s.calls j with pc := .recv }),
        .step (.call j) (by rw [step_call hc]; simp [callStep, hp]) (.refl _), rfl, rfl, rfl, fun c h => ?_⟩
      have hne : c ≠ j := by rintro rfl; rw [hp] at h; cases h
      simp [State.set, hne]
    | some e =>
      refine ⟨({ s with writeLock := none }.set j { s.calls j with pc := .done (.flushErr e) }),
        .step (.call j) (by rw [step_call hc]; simp [callStep, hp]) (.refl _), rfl, rfl, rfl, fun c h => ?_⟩
      have hne : c ≠ j := by rintro rfl; rw [hp] at h; cases h
      simp [State.set, hne]
  have wr : ∀ {s : State} (j : Nat) (rest : List Byte), s.crashed = false → s.rawClosed = true →
      (s.calls j).pc = .writing rest → ∃ s', Leads P s s' ∧ s'.writeLock = none ∧ SameW s s' := by
    intro s j rest hc hrc hp
    cases rest with
    | nil =>
      obtain ⟨s', h1, h2, h3⟩ := un (s := s.set j { s.calls j with pc := .wunlock none }) j none hc (by simp [State.set])
      refine ⟨s', .step (.call j) (by rw [step_call hc]; simp [callStep, hp]) h1, h2, h3.crashed, h3.rawClosed,
        fun c h => ?_⟩
      have hne : c ≠ j := by rintro rfl; rw [hp] at h; cases h
      rw [h3.calls c (by simp [State.set, hne, h])]
      simp [State.set, hne]
    | cons b rest =>
      obtain ⟨s', h1, h2, h3⟩ := un (s := { s with wire := s.wire ++ [], werr := some ⟨0⟩ }.set j
        { s.calls j with pc := .wunlock (some ⟨0⟩), sent := (s.calls j).sent ++ [] }) j _ hc (by simp [State.set]; rfl)
      refine ⟨s', .step (.writeErr j 0 ⟨0⟩) (by simp [step, hc, hp]) h1, h2, h3.crashed, h3.rawClosed,
        fun c h => ?_⟩
      have hne : c ≠ j := by rintro rfl; rw [hp] at h; cases h
      rw [h3.calls c (by simp [State.set, hne, h])]
      simp [State.set, hne]
  cases hw : s.writeLock with
  | none => exact ⟨s, .refl s, hw, rfl, rfl, fun _ _ => rfl⟩
  | some j =>
    have hh := (hl.callW j).2 hw
    cases hp : (s.calls j).pc with
    | encode =>
      cases he : s.werr with
      | some e =>
        obtain ⟨s', h1, h2, h3⟩ := un (s := s.set j { s.calls j with pc := .wunlock (some e) }) j _ hc (by simp [State.set]; rfl)
        refine ⟨s', .step (.call j) (by rw [step_call hc]; simp [callStep, hp, he]) h1, h2, h3.crashed, h3.rawClosed,
          fun c h => ?_⟩
        have hne : c ≠ j := by rintro rfl; rw [hp] at h; cases h
        rw [h3.calls c (by simp [State.set, hne, h])]
        simp [State.set, hne]
      | none =>
        obtain ⟨s', h1, h2, h3⟩ := wr (s := ({ s with started := s.started ++ [j] }.set j
          { s.calls j with pc := .writing ((s.calls j).job.frame (s.calls j).id) })) j _ hc hrc (by simp [State.set]; rfl)
        refine ⟨s', .step (.call j) (by rw [step_call hc]; simp [callStep, hp, he]) h1, h2, h3.crashed, h3.rawClosed,
          fun c h => ?_⟩
        have hne : c ≠ j := by rintro rfl; rw [hp] at h; cases h
        rw [h3.calls c (by simp [State.set, hne, h])]
        simp [State.set, hne]
    | writing rest => exact wr j rest hc hrc hp
    | wunlock r => exact un j r hc hp
    | _ => rw [hp] at hh; cases hh

/-- Once `raw` is closed, a call that has not written can go on to return an error. -/
theorem doomed_returns {P : Params} {c : Nat} {s : State} (hr : Reach P Any s) (hd : Doomed c s)
    (hc : s.crashed = false) : ∃ s' e, Leads P s s' ∧ (s'.calls c).pc = .done (.flushErr e) := by
  -- backwards through the operations of `Do`
  have unl : ∀ {s : State} (e : WErr), s.crashed = false → (s.calls c).pc = .wunlock (some e) →
      ∃ s' e, Leads P s s' ∧ (s'.calls c).pc = .done (.flushErr e) := fun {s} e hc hp =>
    ⟨({ s with writeLock := none }.set c { s.calls c with pc := .done (.flushErr e) }), e,
      .step (.call c) (by rw [step_call hc]; simp [callStep, hp]) (.refl _), by simp [State.set]⟩
  have wri : ∀ {s : State} (rest : List Byte), s.crashed = false → rest ≠ [] → (s.calls c).pc = .writing rest →
      ∃ s' e, Leads P s s' ∧ (s'.calls c).pc = .done (.flushErr e) := fun {s} rest hc hn hp => by
    obtain ⟨s', e, h1, h2⟩ := unl (s := { s with wire := s.wire ++ rest.take 0, werr := some ⟨0⟩ }.set c
        { s.calls c with pc := .wunlock (some ⟨0⟩), sent := (s.calls c).sent ++ rest.take 0 }) ⟨0⟩ hc (by simp [State.set])
    exact ⟨s', e, .step (.writeErr c 0 ⟨0⟩) (by simp [step, hc, hp, hn]) h1, h2⟩
  have enc : ∀ {s : State}, s.crashed = false → (∀ id, (s.calls c).job.frame id ≠ []) → (s.calls c).pc = .encode →
      ∃ s' e, Leads P s s' ∧ (s'.calls c).pc = .done (.flushErr e) := fun {s} hc hn hp => by
    cases he : s.werr with
    | some e =>
      obtain ⟨s', e, h1, h2⟩ := unl (s := s.set c { s.calls c with pc := .wunlock (some e) }) e hc (by simp [State.set])
      exact ⟨s', e, .step (.call c) (by rw [step_call hc]; simp [callStep, hp, he]) h1, h2⟩
    | none =>
      obtain ⟨s', e, h1, h2⟩ := wri (s := ({ s with started := s.started ++ [c] }.set c
        { s.calls c with pc := .writing ((s.calls c).job.frame (s.calls c).id) })) _ hc (hn (s.calls c).id)
        (by simp [State.set])
      exact ⟨s', e, .step (.call c) (by rw [step_call hc]; simp [callStep, hp, he]) h1, h2⟩
  have wlk : ∀ {s : State}, Reach P Any s → s.crashed = false → s.rawClosed = true →
      (∀ id, (s.calls c).job.frame id ≠ []) → (s.calls c).pc = .wlock →
      ∃ s' e, Leads P s s' ∧ (s'.calls c).pc = .done (.flushErr e) := fun {s} hr hc hrc hn hp => by
    obtain ⟨s1, h1, h2, h3⟩ := free_write (P := P) hr.locks hc hrc
    have hcc := h3.calls c (by rw [hp]; rfl)
    have hc1 : s1.crashed = false := by rw [h3.crashed]; exact hc
    have hp1 : (s1.calls c).pc = .wlock := by rw [hcc]; exact hp
    obtain ⟨s', e, h4, h5⟩ := enc (s := ({ s1 with writeLock := some c }.set c { s1.calls c with pc := .encode })) hc1
      (by simp [State.set, hcc, hn]) (by simp [State.set])
    exact ⟨s', e, h1.trans (.step (.call c) (by rw [step_call hc1]; simp [callStep, hp1, h2]) h4), h5⟩
  have run : ∀ {s : State}, Reach P Any s → s.crashed = false → s.rawClosed = true →
      (∀ id, (s.calls c).job.frame id ≠ []) → (s.calls c).pc = .runlock →
      ∃ s' e, Leads P s s' ∧ (s'.calls c).pc = .done (.flushErr e) := fun {s} hr hc hrc hn hp => by
    have hst : step P (.call c) s = some ({ s with readLock := none }.set c { s.calls c with pc := .wlock }) := by
      rw [step_call hc]; simp [callStep, hp]
    obtain ⟨s', e, h4, h5⟩ := wlk (hr.step _ trivial hst) hc hrc (by simp [State.set, hn]) (by simp [State.set])
    exact ⟨s', e, .step (.call c) hst h4, h5⟩
  have ins : ∀ {s : State}, Reach P Any s → s.crashed = false → s.rawClosed = true →
      (∀ id, (s.calls c).job.frame id ≠ []) → (s.calls c).pc = .insert →
      ∃ s' e, Leads P s s' ∧ (s'.calls c).pc = .done (.flushErr e) := fun {s} hr hc hrc hn hp => by
    have hst : step P (.call c) s = some ({ s with requests := upd s.requests (s.calls c).id (some c) }.set c
        { s.calls c with pc := .runlock }) := by rw [step_call hc]; simp [callStep, hp]
    obtain ⟨s', e, h4, h5⟩ := run (hr.step _ trivial hst) hc hrc (by simp [State.set, hn]) (by simp [State.set])
    exact ⟨s', e, .step (.call c) hst h4, h5⟩
  have rlk : ∀ {s : State}, Reach P Any s → s.crashed = false → s.rawClosed = true →
      (∀ id, (s.calls c).job.frame id ≠ []) → (s.calls c).pc = .rlock →
      ∃ s' e, Leads P s s' ∧ (s'.calls c).pc = .done (.flushErr e) := fun {s} hr hc hrc hn hp => by
    obtain ⟨s1, h1, h2, h3, _⟩ := free_read (P := P) hr.locks hc
    have hcc := h3.calls c (by rw [hp]; rfl)
    have hc1 : s1.crashed = false := by rw [h3.crashed]; exact hc
    have hp1 : (s1.calls c).pc = .rlock := by rw [hcc]; exact hp
    have hst : step P (.call c) s1 = some ({ s1 with readLock := some (.call c) }.set c
        { s1.calls c with pc := .insert }) := by rw [step_call hc1]; simp [callStep, hp1, h2]
    obtain ⟨s', e, h4, h5⟩ := ins ((h1.reach hr).step _ trivial hst) hc1 (by rw [← hrc]; exact h3.rawClosed)
      (by simp [State.set, hcc, hn]) (by simp [State.set])
    exact ⟨s', e, h1.trans (.step (.call c) hst h4), h5⟩
  obtain ⟨hrc, ha, hn, hp⟩ := hd
  rcases hp with hp | hp | ⟨e, hp | hp⟩
  · cases hq : (s.calls c).pc with
    | absent => exact absurd hq ha
    | add =>
      have hst : step P (.call c) s = some ({ s with id := s.id + 1, count := s.count + 1 }.set c
          { s.calls c with id := s.id + 1, seq := s.count + 1, pc := .rlock }) := by
        rw [step_call hc]; simp [callStep, hq]
      obtain ⟨s', e, h4, h5⟩ := rlk (hr.step _ trivial hst) hc hrc (by simp [State.set, hn]) (by simp [State.set])
      exact ⟨s', e, .step (.call c) hst h4, h5⟩
    | rlock => exact rlk hr hc hrc hn hq
    | insert => exact ins hr hc hrc hn hq
    | runlock => exact run hr hc hrc hn hq
    | wlock => exact wlk hr hc hrc hn hq
    | encode => exact enc hc hn hq
    | _ => rw [hq] at hp; cases hp
  · exact wri _ hc (hn _) hp
  · exact unl e hc hp
  · exact ⟨s, e, .refl s, hp⟩

/-! ### The loops after `Close` -/

/-- Bound on the operations of `messageLoop` until it returns, once the context is done. -/
def mCost (P : Params) (s : State) : Nat :=
  match s.mpc with
  | .exited => 0
  | .top => 1
  | .send _ _ => 2
  | .decode _ _ => 3
  | .runlock _ _ => 4
  | .delete _ _ _ => 5
  | .lookup _ _ => 6
  | .rlock _ _ => 7
  | .inBody _ => 8 + Ring.rCost s.ring
  | .inHead => 21 + 7 * P.buf + Ring.rCost s.ring

/-- Bound on the operations of `readLoop` until it returns, once `raw` is closed. -/
def lCost (s : State) : Nat :=
  match s.lpc with
  | .exited => 0
  | .read => 1
  | .inWrite => 2 + Ring.wCost s.ring

/-- Operations of `messageLoop`. -/
def Act.ofMessage : Act → Bool
  | .message => true
  | .ring a => a.ofReader
  | _ => false

/-- Operations of `readLoop`. -/
def Act.ofRead : Act → Bool
  | .read _ | .readErr _ | .readNext => true
  | .ring a => a.ofWriter
  | _ => false

theorem inRing_calls {a : Ring.Action} (h : inRing a = true) : a.isCallR = false ∧ a.isCallW = false := by
  cases a <;> simp [inRing] at h <;> exact ⟨rfl, rfl⟩

theorem mCost_step {P : Params} {s s' : State} {a : Act} (hf : Frames P s) (hm : s.cancelled = true)
    (hi : (∀ size, s.mpc ≠ .inHead ∧ s.mpc ≠ .inBody size) → s.ring.rpc = .idle) (ht : Trans P s a s')
    (hs : s'.crashed = false) :
    (if a.ofMessage = true then 1 else 0) + mCost P s' ≤ mCost P s := by
  cases ht
  case ring a r ha hr =>
    have h1 := Ring.step_rCost (inRing_calls ha).1 hr
    have hidle : s.ring.rpc = .idle → a.ofReader = false := fun h => by
      cases a <;> simp [inRing] at ha <;> simp [Ring.step, Ring.rStep, h, Ring.Action.ofReader] at hr ⊢
    show (if a.ofReader = true then 1 else 0) + _ ≤ _
    simp only [mCost]
    cases h : s.mpc <;> simp only [h] at hi <;> first
      | (dsimp only; omega)
      | (have h2 := hidle (hi (by simp)); simp [h2])
  case rbClose k r h hr =>
    have h1 := Ring.step_rCost rfl hr
    simp only [Act.ofMessage, mCost]
    cases h : s.mpc <;> simp <;> omega
  case read data r h1 h2 h3 hr =>
    have h1 := Ring.step_rCost rfl hr
    simp only [Act.ofMessage, mCost]
    cases h : s.mpc <;> simp <;> omega
  case head r h hc hr => rw [hm] at hc; cases hc
  case body size r h hi' hsz hr =>
    have hb := hf.head h
    obtain ⟨_, _, rfl⟩ := ring_callR hr
    simp only [Act.ofMessage, mCost, h, Ring.rCost, Ring.RPc.cost, hi']
    simp
    omega
  all_goals (simp_all [Act.ofMessage, mCost, State.set] <;> omega)

theorem lCost_step {P : Params} {s s' : State} {a : Act} (hm : s.rawClosed = true)
    (hi : s.lpc ≠ .inWrite → s.ring.wpc = .idle) (ht : Trans P s a s') :
    (if a.ofRead = true then 1 else 0) + lCost s' ≤ lCost s := by
  cases ht
  case ring a r ha hr =>
    have h1 := Ring.step_wCost (inRing_calls ha).2 hr
    have hidle : s.ring.wpc = .idle → a.ofWriter = false := fun h => by
      cases a <;> simp [inRing] at ha <;> simp [Ring.step, Ring.wStep, h, Ring.Action.ofWriter] at hr ⊢
    show (if a.ofWriter = true then 1 else 0) + _ ≤ _
    simp only [lCost]
    cases h : s.lpc <;> simp only [h] at hi <;> first
      | (dsimp only; omega)
      | (have h2 := hidle (hi (by simp)); simp [h2])
  case rbClose k r h hr =>
    have h1 := Ring.step_wCost rfl hr
    simp only [Act.ofRead, lCost]
    cases h : s.lpc <;> simp <;> omega
  case head r _ _ hr =>
    have h1 := Ring.step_wCost rfl hr
    simp only [Act.ofRead, lCost]
    cases h : s.lpc <;> simp <;> omega
  case body size r _ _ _ hr =>
    have h1 := Ring.step_wCost rfl hr
    simp only [Act.ofRead, lCost]
    cases h : s.lpc <;> simp <;> omega
  case read data r h1 h2 h3 hr => rw [hm] at h2; cases h2
  case readNext h hw => simp [Act.ofRead, lCost, h, Ring.wCost, hw]
  case full => simp [Act.ofRead, Ring.Action.ofWriter, lCost]
  all_goals simp_all [Act.ofRead, lCost, State.set]

/-- `WriteN` is only called by `readLoop`. -/
theorem Reach.writer {P : Params} {ok : State → Act → Prop} {s : State} (h : Reach P ok s) :
    s.lpc ≠ .inWrite → s.ring.wpc = .idle := by
  refine h.inv (I := fun s => s.lpc ≠ .inWrite → s.ring.wpc = .idle) (fun _ => rfl) ?_
  intro s s' a _ hi hok ht
  clear hok
  cases ht
  case ring a r ha hr =>
    intro h
    have h1 := hi h
    cases a <;> simp [inRing] at ha
    case w => simp [Ring.step, Ring.wStep, h1] at hr
    case r =>
      have := (Ring.rStep_wCost hr).1
      have h2 : s.ring.wpc = .idle := h1
      simp only [Ring.step, Ring.rStep] at hr
      split at hr <;> (try split at hr) <;> simp only [Option.some.injEq, reduceCtorEq] at hr <;>
        (try split at hr) <;> subst hr <;> simp_all [Ring.rWaited, Ring.rReturn]
    case handR => simp [Ring.step, h1] at hr
    case handW => simp [Ring.step, h1] at hr
  case read data r h1 h2 h3 hr => intro h; exact absurd rfl h
  case readNext h hw => intro _; exact hw
  case readErr _ h _ _ => intro _; exact hi (by rw [h]; simp)
  case rbClose k r _ hr =>
    simp only [Ring.step, Option.some.injEq] at hr
    subst hr; exact hi
  case head r _ _ hr => obtain ⟨_, _, rfl⟩ := ring_callR hr; exact hi
  case body size r _ _ _ hr => obtain ⟨_, _, rfl⟩ := ring_callR hr; exact hi
  all_goals exact hi

/-- In a connection being closed, `messageLoop` can go on, or waits for `readLock`, whose holder can
go on. -/
theorem message_enabled {P : Params} {s : State} (hr : Reach P Any s) (hc : s.crashed = false)
    (hcl : s.ring.closed = true) (hca : s.cancelled = true) :
    s.mpc = .exited ∨ (step P .message s).isSome ∨ (step P (.ring .r) s).isSome ∨
      ∃ c, s.readLock = some (.call c) ∧ (step P (.call c) s).isSome := by
  have hf := hr.frames
  have hk := hr.tokens
  have hl := hr.locks
  have ring : s.ring.rpc ≠ .idle → (step P (.ring .r) s).isSome := fun h => by
    by_cases hfull : full s = true
    · simp [step, hc, hfull]
    · simp [step, hc, inRing, hfull]
      exact Ring.rStep_enabled hcl h
  rw [step_message hc]
  cases hm : s.mpc with
  | exited => exact .inl rfl
  | top => exact .inr (.inl (by simp [messageStep, hm, hca]))
  | inHead =>
    by_cases hi : s.ring.rpc = .idle
    · refine .inr (.inl ?_)
      simp only [messageStep, hm, if_pos hi]
      cases headSize s.ring.rdst with
      | none => rfl
      | some size =>
        have := room_length s.ring.rdst size
        have h1 : min size.toNat (s.ring.rdst.length + 1) ≤ (room s.ring.rdst size).length := by
          rw [this]; split <;> omega
        simp [readN, Ring.step, hi, h1]
    · exact .inr (.inr (.inl (ring hi)))
  | inBody size =>
    by_cases hi : s.ring.rpc = .idle
    · refine .inr (.inl ?_)
      simp only [messageStep, hm, if_pos hi]
      split
      · rfl
      · split <;> rfl
    · exact .inr (.inr (.inl (ring hi)))
  | rlock id d =>
    cases ho : s.readLock with
    | none => exact .inr (.inl (by simp [messageStep, hm, ho]))
    | some o =>
      cases o with
      | call c =>
        refine .inr (.inr (.inr ⟨c, rfl, ?_⟩))
        have := (hl.callR c).2 ho
        rw [step_call hc]
        cases hp : (s.calls c).pc <;> rw [hp] at this <;> first | (cases this; done) | simp [callStep, hp]
      | loop =>
        have := hl.loopR.2 ho
        rw [hm] at this
        cases this
  | lookup id d => exact .inr (.inl (by simp [messageStep, hm]))
  | delete id d c => exact .inr (.inl (by simp [messageStep, hm]))
  | runlock d c => exact .inr (.inl (by cases c <;> simp [messageStep, hm]))
  | decode d c =>
    refine .inr (.inl ?_)
    simp only [messageStep, hm]
    split <;> rfl
  | send d c =>
    refine .inr (.inl ?_)
    simp [messageStep, hm, (hk.taken c (by rw [hm]; rfl)).2.1]

/-- What the loops leave alone. -/
structure Keeps (s s' : State) : Prop where
  closers : s'.closers = s.closers
  cancelled : s'.cancelled = s.cancelled
  rawClosed : s'.rawClosed = s.rawClosed
  closed : s.ring.closed = true → s'.ring.closed = true

theorem Keeps.refl (s : State) : Keeps s s := ⟨rfl, rfl, rfl, id⟩

theorem Keeps.trans {s s1 s' : State} (h : Keeps s s1) (h' : Keeps s1 s') : Keeps s s' :=
  ⟨h'.closers.trans h.closers, h'.cancelled.trans h.cancelled, h'.rawClosed.trans h.rawClosed,
   fun hc => h'.closed (h.closed hc)⟩

theorem keeps_step {P : Params} {s s' : State} {a : Act} (ht : Trans P s a s') (ha : a.isClose = false) :
    Keeps s s' := by
  cases ht
  case ring a r hi hr => exact ⟨rfl, rfl, rfl, Ring.step_closed hr⟩
  case head r _ _ hr => exact ⟨rfl, rfl, rfl, Ring.step_closed hr⟩
  case body size r _ _ _ hr => exact ⟨rfl, rfl, rfl, Ring.step_closed hr⟩
  case read data r _ _ _ hr => exact ⟨rfl, rfl, rfl, Ring.step_closed hr⟩
  all_goals first
    | (cases ha; done)
    | exact ⟨rfl, rfl, rfl, id⟩

/-- The number of operations until `readLock` is free, and until `messageLoop` returns. -/
theorem message_exits {P : Params} (hP : 4 ≤ P.buf) : ∀ (n : Nat) {s : State}, Reach P Any s → s.crashed = false →
    s.ring.closed = true → s.cancelled = true → mCost P s ≤ n →
    ∃ s', Leads P s s' ∧ Keeps s s' ∧ (s'.crashed = true ∨ s'.mpc = .exited) := by
  intro n
  induction n with
  | zero =>
    intro s _ _ _ _ hn
    refine ⟨s, .refl s, .refl s, .inr ?_⟩
    unfold mCost at hn
    cases hm : s.mpc <;> simp [hm] at hn
    rfl
  | succ n ih =>
    intro s hr hc hcl hca hn
    have own : ∀ {s s1 : State} (a : Act), Reach P Any s → s.crashed = false → s.ring.closed = true →
        s.cancelled = true → mCost P s ≤ n + 1 → a.ofMessage = true → a.isClose = false → step P a s = some s1 →
        ∃ s', Leads P s s' ∧ Keeps s s' ∧ (s'.crashed = true ∨ s'.mpc = .exited) := by
      intro s s1 a hr hc hcl hca hn ha ha' hst
      have ht := step_trans hst
      have hk := keeps_step ht ha'
      by_cases hc1 : s1.crashed = true
      · exact ⟨s1, .step a hst (.refl _), hk, .inl hc1⟩
      · have hcost := mCost_step hr.frames hca (fun h => (hr.stream hP).out h |>.1) ht (by simpa using hc1)
        rw [if_pos ha] at hcost
        obtain ⟨s', h1, h2, h3⟩ := ih (hr.step a trivial hst) (by simpa using hc1) (hk.closed hcl)
          (by rw [hk.cancelled]; exact hca) (by omega)
        exact ⟨s', .step a hst h1, hk.trans h2, h3⟩
    rcases message_enabled hr hc hcl hca with h | h | h | ⟨c, hlk, _⟩
    · exact ⟨s, .refl s, .refl s, .inr h⟩
    · obtain ⟨s1, h1⟩ := Option.isSome_iff_exists.1 h
      exact own .message hr hc hcl hca hn rfl rfl h1
    · obtain ⟨s1, h1⟩ := Option.isSome_iff_exists.1 h
      exact own (.ring .r) hr hc hcl hca hn rfl rfl h1
    · obtain ⟨s1, h1, h2, h3, h4⟩ := free_read (P := P) hr.locks hc
      have hk : Keeps s s1 := ⟨h3.closers, h3.cancelled, h3.rawClosed, by rw [h3.ring]; exact id⟩
      have hmh : s.mpc.holdsR = false := by
        cases hh : s.mpc.holdsR with
        | false => rfl
        | true => have := hr.locks.loopR.1 hh; rw [hlk] at this; cases this
      have hm := h4 hmh
      have hr1 := h1.reach hr
      have hc1 : s1.crashed = false := by rw [h3.crashed]; exact hc
      have hcost : mCost P s1 = mCost P s := by unfold mCost; rw [hm, h3.ring]
      rcases message_enabled hr1 hc1 (by rw [h3.ring]; exact hcl) (by rw [h3.cancelled]; exact hca) with
        h | h | h | ⟨c, hlk, _⟩
      · exact ⟨s1, h1, hk, .inr h⟩
      · obtain ⟨s2, h5⟩ := Option.isSome_iff_exists.1 h
        obtain ⟨s', h6, h7, h8⟩ := own .message hr1 hc1 (by rw [h3.ring]; exact hcl) (by rw [h3.cancelled]; exact hca)
          (by rw [hcost]; exact hn) rfl rfl h5
        exact ⟨s', h1.trans h6, hk.trans h7, h8⟩
      · obtain ⟨s2, h5⟩ := Option.isSome_iff_exists.1 h
        obtain ⟨s', h6, h7, h8⟩ := own (.ring .r) hr1 hc1 (by rw [h3.ring]; exact hcl)
          (by rw [h3.cancelled]; exact hca) (by rw [hcost]; exact hn) rfl rfl h5
        exact ⟨s', h1.trans h6, hk.trans h7, h8⟩
      · rw [h2] at hlk; cases hlk

/-- In a connection being closed, `readLoop` can go on. -/
theorem read_enabled {P : Params} {s : State} (hc : s.crashed = false) (hcl : s.ring.closed = true) :
    s.lpc = .exited ∨ (step P (.readErr []) s).isSome ∨ (step P .readNext s).isSome ∨ (step P (.ring .w) s).isSome := by
  cases h : s.lpc with
  | exited => exact .inl rfl
  | read => exact .inr (.inl (by simp [step, hc, h]))
  | inWrite =>
    by_cases hi : s.ring.wpc = .idle
    · exact .inr (.inr (.inl (by simp [step, hc, h, hi])))
    · refine .inr (.inr (.inr ?_))
      simp [step, hc, inRing]
      exact Ring.wStep_enabled hcl hi

theorem read_exits {P : Params} : ∀ (n : Nat) {s : State}, Reach P Any s → s.crashed = false →
    s.ring.closed = true → s.rawClosed = true → s.mpc = .exited → lCost s ≤ n →
    ∃ s', Leads P s s' ∧ Keeps s s' ∧ s'.mpc = .exited ∧ s'.lpc = .exited ∧ s'.crashed = false := by
  intro n
  induction n with
  | zero =>
    intro s _ hc _ _ hm hn
    refine ⟨s, .refl s, .refl s, hm, ?_, hc⟩
    unfold lCost at hn
    cases hl : s.lpc <;> simp [hl] at hn
    rfl
  | succ n ih =>
    intro s hr hc hcl hrc hm hn
    have own : ∀ {s1 : State} (a : Act), a.ofRead = true → a.isClose = false →
        (∀ s1, Trans P s a s1 → s1.mpc = s.mpc ∧ s1.crashed = s.crashed) → step P a s = some s1 →
        ∃ s', Leads P s s' ∧ Keeps s s' ∧ s'.mpc = .exited ∧ s'.lpc = .exited ∧ s'.crashed = false := by
      intro s1 a ha ha' hm1 hst
      have ht := step_trans hst
      have hk := keeps_step ht ha'
      have hcost := lCost_step hrc hr.writer ht
      rw [if_pos ha] at hcost
      obtain ⟨s', h1, h2, h3⟩ := ih (hr.step a trivial hst) (by rw [(hm1 s1 ht).2]; exact hc) (hk.closed hcl)
        (by rw [hk.rawClosed]; exact hrc) (by rw [(hm1 s1 ht).1]; exact hm) (by omega)
      exact ⟨s', .step a hst h1, hk.trans h2, h3⟩
    rcases read_enabled hc hcl with h | h | h | h
    · exact ⟨s, .refl s, .refl s, hm, h, hc⟩
    · obtain ⟨s1, h1⟩ := Option.isSome_iff_exists.1 h
      exact own (.readErr []) rfl rfl (by intro s1 ht; cases ht; exact ⟨rfl, rfl⟩) h1
    · obtain ⟨s1, h1⟩ := Option.isSome_iff_exists.1 h
      exact own .readNext rfl rfl (by intro s1 ht; cases ht; exact ⟨rfl, rfl⟩) h1
    · obtain ⟨s1, h1⟩ := Option.isSome_iff_exists.1 h
      exact own (.ring .w) rfl rfl (by intro s1 ht; cases ht; exact ⟨rfl, rfl⟩) h1

/-- A call of `Close` that has closed everything: what it has done stays done. -/
structure Closed (s : State) : Prop where
  cancel : ∀ k, s.closers k ≠ .absent → s.closers k ≠ .cancel → s.cancelled = true
  rb : ∀ k, s.closers k ≠ .absent → s.closers k ≠ .cancel → s.closers k ≠ .rbClose → s.ring.closed = true
  raw : ∀ k, s.closers k ≠ .absent → s.closers k ≠ .cancel → s.closers k ≠ .rbClose → s.closers k ≠ .rawClose →
    s.rawClosed = true
  read : ∀ k, s.closers k = .waitRead ∨ s.closers k = .done → s.mpc = .exited
  done : ∀ k, s.closers k = .done → s.lpc = .exited

theorem Closed.trans {P : Params} {s s' : State} {a : Act} (h : Closed s) (ht : Trans P s a s') : Closed s' := by
  obtain ⟨h1, h2, h3, h4, h5⟩ := h
  cases ht
  case ring a r hi hr =>
    exact ⟨h1, fun k a b c => Ring.step_closed hr (h2 k a b c), h3, h4, h5⟩
  case head r hm hc hr =>
    exact ⟨h1, fun k a b c => Ring.step_closed hr (h2 k a b c), h3, fun k hk => (by
      have := h4 k hk; rw [hm] at this; cases this), h5⟩
  case body size r hm _ _ hr =>
    exact ⟨h1, fun k a b c => Ring.step_closed hr (h2 k a b c), h3, fun k hk => (by
      have := h4 k hk; rw [hm] at this; cases this), h5⟩
  case read data r hm _ _ hr =>
    exact ⟨h1, fun k a b c => Ring.step_closed hr (h2 k a b c), h3, h4, fun k hk => by
      have := h5 k hk; rw [hm] at this; cases this⟩
  case rbClose j r hj hr =>
    have hcl : r.closed = true := by
      simp only [Ring.step, Option.some.injEq] at hr; subst hr; rfl
    refine ⟨?_, fun _ _ _ _ => hcl, ?_, ?_, ?_⟩ <;> intro k <;> have := h1 j <;> have := h1 k <;> grind
  all_goals
    constructor <;> intro k <;> (try simp only [State.set]) <;> grind

theorem Reach.closed {P : Params} {ok : State → Act → Prop} {s : State} (h : Reach P ok s) : Closed s :=
  h.inv (by constructor <;> simp [Conn.init]) fun _ h _ ht => h.trans ht

/-- A call of `Close` can go on to return, unless a goroutine panics. -/
theorem close_returns {P : Params} (hP : 4 ≤ P.buf) {s : State} (hr : Reach P Any s) (hc : s.crashed = false)
    (k : Nat) : ∃ s', Leads P s s' ∧ (s'.crashed = true ∨ s'.closers k = .done) := by
  have rd : ∀ {s : State}, Reach P Any s → s.crashed = false → s.closers k = .waitRead →
      ∃ s', Leads P s s' ∧ (s'.crashed = true ∨ s'.closers k = .done) := fun {s} hr hc hk => by
    have h := hr.closed
    obtain ⟨s1, h1, h2, h3, h4, h5⟩ := read_exits _ hr hc (h.rb k (by simp [hk]) (by simp [hk]) (by simp [hk]))
      (h.raw k (by simp [hk]) (by simp [hk]) (by simp [hk]) (by simp [hk])) (h.read k (.inl hk)) (Nat.le_refl _)
    exact ⟨_, h1.trans (.step (.close k) (by simp only [step, h5, closeStep, h2.closers, hk, h4]; rfl) (.refl _)),
      .inr (by simp)⟩
  have ms : ∀ {s : State}, Reach P Any s → s.crashed = false → s.closers k = .waitMessage →
      ∃ s', Leads P s s' ∧ (s'.crashed = true ∨ s'.closers k = .done) := fun {s} hr hc hk => by
    have h := hr.closed
    obtain ⟨s1, h1, h2, h3⟩ := message_exits hP _ hr hc (h.rb k (by simp [hk]) (by simp [hk]) (by simp [hk]))
      (h.cancel k (by simp [hk]) (by simp [hk])) (Nat.le_refl _)
    cases hc1 : s1.crashed with
    | true => exact ⟨s1, h1, .inl hc1⟩
    | false =>
      have hm := h3.resolve_left (by simp [hc1])
      have hst : step P (.close k) s1 = some { s1 with closers := fun j => if j = k then .waitRead else s1.closers j } := by
        simp only [step, hc1, closeStep, h2.closers, hk, hm]; rfl
      obtain ⟨s', h4, h5⟩ := rd ((h1.reach hr).step _ trivial hst) hc1 (by simp)
      exact ⟨s', h1.trans (.step _ hst h4), h5⟩
  have rw' : ∀ {s : State}, Reach P Any s → s.crashed = false → s.closers k = .rawClose →
      ∃ s', Leads P s s' ∧ (s'.crashed = true ∨ s'.closers k = .done) := fun {s} hr hc hk => by
    have hst : step P (.close k) s = some { s with rawClosed := true, closers := fun j => if j = k then .waitMessage else s.closers j } := by
      simp only [step, hc, closeStep, hk]; rfl
    obtain ⟨s', h4, h5⟩ := ms (hr.step _ trivial hst) hc (by simp)
    exact ⟨s', .step _ hst h4, h5⟩
  have rb : ∀ {s : State}, Reach P Any s → s.crashed = false → s.closers k = .rbClose →
      ∃ s', Leads P s s' ∧ (s'.crashed = true ∨ s'.closers k = .done) := fun {s} hr hc hk => by
    have hst : step P (.close k) s = some { s with ring := { s.ring with closed := true }, closers := fun j => if j = k then .rawClose else s.closers j } := by
      simp only [step, hc, closeStep, hk, Ring.step]; rfl
    obtain ⟨s', h4, h5⟩ := rw' (hr.step _ trivial hst) hc (by simp)
    exact ⟨s', .step _ hst h4, h5⟩
  have ca : ∀ {s : State}, Reach P Any s → s.crashed = false → s.closers k = .cancel →
      ∃ s', Leads P s s' ∧ (s'.crashed = true ∨ s'.closers k = .done) := fun {s} hr hc hk => by
    have hst : step P (.close k) s = some { s with cancelled := true, closers := fun j => if j = k then .rbClose else s.closers j } := by
      simp only [step, hc, closeStep, hk]; rfl
    obtain ⟨s', h4, h5⟩ := rb (hr.step _ trivial hst) hc (by simp)
    exact ⟨s', .step _ hst h4, h5⟩
  cases hk : s.closers k with
  | absent =>
    have hst : step P (.close k) s = some { s with closers := fun j => if j = k then .cancel else s.closers j } := by
      simp only [step, hc, closeStep, hk]; rfl
    obtain ⟨s', h4, h5⟩ := ca (hr.step _ trivial hst) hc (by simp)
    exact ⟨s', .step _ hst h4, h5⟩
  | cancel => exact ca hr hc hk
  | rbClose => exact rb hr hc hk
  | rawClose => exact rw' hr hc hk
  | waitMessage => exact ms hr hc hk
  | waitRead => exact rd hr hc hk
  | done => exact ⟨s, .refl s, .inr hk⟩

end Kafka.Conn
