import Verif.Props.Progress
/-!
Property C52: what the connection delivers is not dropped.
-/
set_option linter.unusedSimpArgs false

namespace Kafka.Props

open Conn

/-- The full claim: every byte that `raw.Read` has returned is put into the ring buffer, in order. -/
def C52_statement (P : Params) (ok : Conn.State → Act → Prop) : Prop :=
  ∀ s, Conn.Reach P ok s → s.ring.given = s.received ++ s.lost

/-- `raw.Read` does not return bytes along with an error. -/
def NoLastBytes (_ : Conn.State) : Act → Prop
  | .readErr data => data = []
  | _ => True

/-- It holds in all schedules in which `raw.Read` never returns bytes along with an error.  Missing for the full claim:
those in which it does. -/
theorem C52_partial {P : Params} (hP : 4 ≤ P.buf) : C52_statement P NoLastBytes := by
  intro s h
  have hl : s.lost = [] := by
    refine h.inv (I := fun s => s.lost = []) rfl ?_
    intro s s' a _ hi hok ht
    cases ht
    case readErr data _ _ _ =>
      cases (show data = [] from hok)
      simp [hi]
    all_goals exact hi
  rw [hl, List.append_nil]
  exact (h.stream hP).given

/-- In all schedules, nothing is dropped while `readLoop` runs: what is dropped is what came with the error that ended
it. -/
theorem C52_running {P : Params} (hP : 4 ≤ P.buf) {ok : Conn.State → Act → Prop} {s : Conn.State} (h : Conn.Reach P ok s)
    (hl : s.lpc ≠ .exited) : s.ring.given = s.received ++ s.lost := by
  have hl : s.lpc ≠ .exited → s.lost = [] := by
    refine h.inv (I := fun s => s.lpc ≠ .exited → s.lost = []) (fun _ => rfl) ?_
    intro s s' a _ hi hok ht
    clear hok
    cases ht
    case readErr => intro h; exact absurd rfl h
    case read h _ _ _ => intro _; exact hi (by simp [h])
    case readNext h _ => intro _; exact hi (by simp [h])
    all_goals exact hi
  rw [hl ‹_›, List.append_nil]
  exact (h.stream hP).given

/-- The last bytes of the peer come along with the end of the connection. -/
def lastBytes (data : List Byte) : List Act :=
  callDo 0 ++ [.message, .ring .r, .ring .r, .ring .r, .ring .r, .ring .r, .readErr data]

/-- The claim is false, and what is dropped may be the reply to a waiting call: the whole frame is returned by
`raw.Read`, and as long as nobody calls `Close` the call waits for ever. -/
theorem C52_reply_fails {P : Params} (hP : 8 ≤ P.buf) : ∃ s, Conn.Reach P Conn.Any s ∧ s.crashed = false ∧
    splitStream (s.received ++ s.lost) = [Wire.int32 (s.calls 0).id] ∧ (s.calls 0).pc = .recv ∧
    ∀ as s', (∀ a ∈ as, a.isClose = false) → Conn.run P as s = some s' → (s'.calls 0).pc = .recv := by
  obtain ⟨N, B⟩ := P
  obtain ⟨B, rfl⟩ := Nat.exists_eq_add_of_le' hP
  have ew : Wire.int32 1 = [0, 0, 0, 1] := by rw [wire_int32]; rfl
  have h : ∃ s, Conn.run ⟨N, B + 8⟩ (lastBytes [0, 0, 0, 4, 0, 0, 0, 1]) (Conn.init ⟨N, B + 8⟩) = some s ∧
      (s.crashed = false ∧ s.received = [] ∧ s.lost = [0, 0, 0, 4, 0, 0, 0, 1] ∧ (s.calls 0).id = 1 ∧
        (s.calls 0).pc = .recv ∧ Silent s) := by
    unfold lastBytes callDo Conn.init Ring.init sampleJob
    simp only [List.replicate, List.cons_append, List.nil_append, List.append_nil]
    iterate 11 refine run_next (by simp [Conn.step, callStep, State.set, upd, ew]; rfl) ?_
    iterate 6 refine run_next (by
      simp [Conn.step, messageStep, readN, inRing, Ring.step, Ring.rStep, Ring.rLoop]; rfl) ?_
    refine run_next (by simp [Conn.step]; rfl) ?_
    refine ⟨_, rfl, rfl, rfl, rfl, rfl, rfl, rfl, rfl, rfl, rfl, rfl, fun c => ?_⟩
    by_cases h0 : c = 0 <;> simp [h0, CPc.replied]
  obtain ⟨s, h1, h2, h3, h4, h5, h6, h7⟩ := h
  refine ⟨s, connReach_of_run h1, h2, ?_, h6, fun as s' ha hrun => ?_⟩
  · rw [h3, h4, h5, ew]
    exact (splitStream_frame 4 [0, 0, 0, 1] [] (by decide)).trans (by rw [splitStream.eq_def])
  · exact (run_inv (I := fun s => Silent s ∧ (s.calls 0).pc = .recv) (ok := fun a => a.isClose = false)
      (fun s s' a h ha ht => ⟨h.1.trans ha ht, by
        have h0 := h.1.2.2.2.2.2 0
        have hp := h.2
        have hm := h.1.2.2.2.2.1
        cases ht <;> simp only [State.set] <;> grind⟩) as ha ⟨h7, h6⟩ hrun).2

theorem C52_fails {P : Params} (hP : 4 ≤ P.buf) : ¬C52_statement P Conn.Any := by
  intro h
  have h0 : Conn.run P [.readErr [7]] (Conn.init P) = some { Conn.init P with lpc := .exited, lost := [7] } := by
    have h1 : 1 ≤ P.buf := by omega
    simp [Conn.run, Conn.step, Conn.init, h1]
  have := h _ (connReach_of_run h0)
  simp [Conn.init, Ring.init] at this

/-- Non-trivial instance of `C52_partial`: a frame arrives, then the peer closes. -/
example : ∃ s, Conn.Reach small NoLastBytes s ∧ s.lpc = .exited ∧ s.ring.given = [0, 0, 0, 4, 0, 0, 0, 1] := by
  have h : ((Conn.run small (deliver [0, 0, 0, 4, 0, 0, 0, 1] ++ [.readErr []]) (Conn.init small)).map fun s =>
      (s.lpc, s.ring.given)) = some (.exited, [0, 0, 0, 4, 0, 0, 0, 1]) := by decide +kernel
  obtain ⟨s, h1, h2⟩ := Option.map_eq_some_iff.1 h
  simp only [Prod.mk.injEq] at h2
  exact ⟨s, Conn.Reach.run .init _ (fun a ha s => by
    simp only [deliver, List.mem_append, List.mem_cons, List.mem_replicate, List.not_mem_nil, or_false] at ha
    rcases ha with ((rfl | ⟨_, rfl⟩) | rfl) | rfl <;> simp [NoLastBytes]) h1, h2⟩

end Kafka.Props
