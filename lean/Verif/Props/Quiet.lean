import Verif.Props.Work
import Verif.Props.Abandoned
/-!
C86 in infinite executions: when nothing more is received, both goroutines come to rest, in every schedule.  C83 in every schedule.
-/
set_option linter.unusedSimpArgs false

namespace Kafka.Props

open Conn

/-- An infinite execution in which no goroutine is passed over for ever, none panics, and nobody calls `Close`. -/
structure Undisturbed (P : Params) (st : Nat → Conn.State) (act : Nat → Option Act) : Prop where
  exec : Exec P st act
  fair : Fair P st act
  crashed : ∀ m, (st m).crashed = false
  closers : ∀ m k, (st m).closers k = .absent

section
variable {P : Params} {st : Nat → Conn.State} {act : Nat → Option Act}

theorem _root_.Kafka.Conn.Trans.unread {s s' : Conn.State} {a : Act} (ht : Conn.Trans P s a s') (ha : a.isRead = false) :
    s'.received = s.received := by
  cases ht
  case read => cases ha
  all_goals rfl

/-- `messageLoop` is waiting in the ring buffer, or can go on when `readLock` is free. -/
theorem open_canGo (hP : 4 ≤ P.buf) {s : Conn.State} (h : Conn.Reach P Conn.Any s) (hk : ∀ k, s.closers k = .absent)
    (hc : s.crashed = false) (hw : s.ring.rpc ≠ .waitSend) (hr : s.readLock = none) : CanGo P s .message := by
  obtain ⟨ho, hca, _⟩ := open_inv h hk
  have hm := (C83_only h hk).1
  have ht := h.tokens
  have hpair := (h.ring (rok := Ring.Any) (fun _ _ _ => trivial) (fun _ _ _ => trivial)).pair ho
  have ring : s.ring.rpc ≠ .idle → CanGo P s .message := fun hi => by
    cases hp : s.ring.rpc with
    | idle => exact absurd hp hi
    | waitSend => exact absurd hp hw
    | relRecv | frelRecv =>
      have := hpair.wrel (by rw [hp]; rfl)
      exact ⟨.ring .handW, rfl, by simp [Conn.step, hc, inRing, Ring.step, this, hp]⟩
    | _ =>
      refine ⟨.ring .r, rfl, ?_⟩
      by_cases hfull : full s = true
      · simp [Conn.step, hc, hfull]
      · simp [Conn.step, hc, inRing, hfull, Ring.step, Ring.rStep, hp]
  by_cases hin : s.mpc = .inHead ∨ ∃ size, s.mpc = .inBody size
  · by_cases hi : s.ring.rpc = .idle
    · refine ⟨.message, rfl, ?_⟩
      rw [step_message hc]
      rcases hin with hm | ⟨size, hm⟩
      · simp only [messageStep, hm, if_pos hi]
        cases headSize s.ring.rdst with
        | none => rfl
        | some size =>
          have h1 : min size.toNat (s.ring.rdst.length + 1) ≤ (room s.ring.rdst size).length := by
            rw [room_length]; split <;> omega
          simp [readN, Ring.step, hi, h1]
      · simp only [messageStep, hm, if_pos hi]
        split
        · rfl
        · split <;> rfl
    · exact ring hi
  · have hi := ((h.stream hP).out (fun size => ⟨fun hx => hin (.inl hx), fun hx => hin (.inr ⟨size, hx⟩)⟩)).1
    refine ⟨.message, rfl, ?_⟩
    rw [step_message hc]
    cases hm' : s.mpc with
    | exited => exact absurd hm' hm
    | inHead => exact absurd (.inl hm') hin
    | inBody size => exact absurd (.inr ⟨size, hm'⟩) hin
    | top => simp [messageStep, hm', hca, readN, Ring.step, hi, Nat.min_le_right]
    | rlock id d => simp [messageStep, hm', hr]
    | lookup id d => simp [messageStep, hm']
    | delete id d c => simp [messageStep, hm']
    | runlock d c => cases c <;> simp [messageStep, hm']
    | decode d c => simp only [messageStep, hm']; split <;> rfl
    | send d c => simp [messageStep, hm', (ht.taken c (by rw [hm']; rfl)).2.1]

/-- **C86** in infinite executions, in every schedule: when `raw.Read` returns nothing more, there comes a moment from which on neither
goroutine does anything, and `messageLoop` waits for bytes. -/
theorem C86_quiet (hN : 0 < P.ring) (hP : 4 ≤ P.buf) (h : Undisturbed P st act) {n : Nat}
    (hq : ∀ m, n ≤ m → ∀ data, act m ≠ some (.read data)) :
    ∃ k, n ≤ k ∧ ∀ m, k ≤ m → (st m).ring.rpc = .waitSend ∧ ∀ a, act m = some a → a.ofMessage = false ∧ a.ofRead = false := by
  have hreach := h.exec.reach
  have hone : ∀ {m a}, act m = some a → Conn.run P [a] (st m) = some (st (m + 1)) := fun {m a} ha => by
    simp [Conn.run, h.exec.some m a ha]
  have hunread : ∀ m, n ≤ m → ∀ a, act m = some a → a.isRead = false := fun m hm a ha => by
    cases a
    case read data => exact absurd ha (hq m hm data)
    all_goals rfl
  -- `readLoop` stops
  obtain ⟨i, hi, hread⟩ := h.fair.stops' h.exec .read lCost (n := n) (fun m hm a ha ht => by
    have h1 := lWork_step (hreach m).writer ht
    have h2 := hunread m hm a ha
    rw [ht.unread h2, h2] at h1
    show (if a.ofRead = true then 1 else 0) + _ ≤ _
    simp only [Bool.false_eq_true, if_false] at h1
    omega)
  have hread : ∀ m, i ≤ m → ∀ a, act m = some a → a.ofRead = false := fun m hm a ha => (hread m hm).2 a ha
  have hopen : ∀ m, (st m).ring.closed = false := fun m => (open_inv (hreach m) (h.closers m)).1
  -- so `messageLoop` reads a bounded number of bytes
  obtain ⟨G, hG⟩ : ∃ G, G = (st i).ring.got.length + Ring.ahead P.ring (st i).ring := ⟨_, rfl⟩
  have hgot := h.exec.keep (I := fun s => s.ring.got.length + Ring.ahead P.ring s.ring ≤ G) (n := i) (fun m hm a ha _ hI => by
    have h1 := run_ahead hN [a] (hreach m) (hone ha) (hopen (m + 1))
    have h2 : readSteps [a] = 0 := by simp [readSteps, hread m hm a ha]
    rw [h2] at h1
    omega) (by omega)
  -- and frames
  obtain ⟨H, hH⟩ : ∃ H, H = headerBytes (st i) := ⟨_, rfl⟩
  have hhead := h.exec.keep (I := fun s => headerBytes s + (st i).ring.got.length ≤ H + s.ring.got.length) (n := i)
    (fun m hm a ha _ hI => by
      have h1 := (run_work hP [a] (hreach m) (hone ha) (h.crashed (m + 1))).2.1
      omega) (by omega)
  have hwork : ∀ m, i ≤ m → mWork (st m) ≤ 7 * G + 34 * (H + G) + 45 := fun m hm => by
    have h1 := hgot m hm
    have h2 := hhead m hm
    have h3 : 4 * (st m).frames.length ≤ headerBytes (st m) := by unfold headerBytes; omega
    have h4 := (st m).ring.rpc.used_le
    have h5 := (st m).mpc.used_le
    unfold mWork Ring.rWork
    omega
  obtain ⟨j, hj, hend⟩ := h.fair.stops' h.exec .message (fun s => 7 * G + 34 * (H + G) + 45 - mWork s) (n := i)
    (fun m hm a ha ht => by
      have h1 := mWork_step ht (h.crashed (m + 1))
      have h2 := hwork (m + 1) (by omega)
      show (if a.ofMessage = true then 1 else 0) + _ ≤ _
      omega)
  obtain ⟨k, hk, hr⟩ := h.fair.freeR hP h.exec h.crashed j
  have h0 : (st k).ring.rpc = .waitSend := Classical.byContradiction fun hy =>
    (hend k hk).1 (open_canGo hP (hreach k) (h.closers k) (h.crashed k) hy hr)
  refine ⟨k, by omega, fun m hm => ⟨?_, fun a ha => ⟨(hend m (by omega)).2 a ha, hread m (by omega) a ha⟩⟩⟩
  exact h.exec.keep (I := fun s => s.ring.rpc = .waitSend) (n := k) (fun m hm a ha ht hI => by
    rw [ht.rpc ((hend m (by omega)).2 a ha)]; exact hI) h0 m hm

/-- **C83** in every schedule: when the peer has closed the connection and nobody calls `Close`, `messageLoop` comes to wait for
ever, and the network connection is not closed. -/
theorem C83_leaks_always (hN : 0 < P.ring) (hP : 4 ≤ P.buf) (h : Undisturbed P st act) {n : Nat} (hx : (st n).lpc = .exited) :
    ∃ k, n ≤ k ∧ ∀ m, k ≤ m → (st m).ring.rpc = .waitSend ∧ (st m).rawClosed = false := by
  have hl := h.exec.keep (I := fun s => s.lpc = .exited) (n := n) (fun m _ a _ ht hi => by
    generalize st (m + 1) = s' at ht
    cases ht <;> simp_all [State.set]) hx
  obtain ⟨k, hk, h1⟩ := C86_quiet hN hP h (n := n) (fun m hm data ha => by
    have h2 := h.exec.some m _ ha
    have h3 := hl m hm
    simp [Conn.step, h.crashed m, h3] at h2)
  exact ⟨k, hk, fun m hm => ⟨(h1 m hm).1, (C83_only (h.exec.reach m) (h.closers m)).2.1⟩⟩

theorem Steady.undisturbed (h : Steady P st act) : Undisturbed P st act := ⟨h.exec, h.fair, h.crashed, h.closers⟩

end

/-- Non-trivial instance of both, for all sizes: the peer closes the connection while a call waits for its reply. -/
example {P : Params} (hN : 2 ≤ P.ring) (hP : 4 ≤ P.buf) : ∃ st act, Undisturbed P st act ∧
    ∃ n, (st n).lpc = .exited ∧ ((st n).calls 0).pc = .recv := by
  obtain ⟨st, act, h, n, hn⟩ := left_example hN hP
  exact ⟨st, act, h.undisturbed, n, hn⟩

end Kafka.Props
