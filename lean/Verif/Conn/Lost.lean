import Verif.Conn.Wires
import Verif.Conn.Frames
/-!
Connections that have been closed or have broken.
-/
set_option linter.unusedSimpArgs false

namespace Kafka.Conn

open Kafka

/-- What every step preserves, every schedule preserves. -/
theorem run_inv {P : Params} {I : State → Prop} {ok : Act → Prop}
    (h : ∀ s s' a, I s → ok a → Trans P s a s' → I s') :
    ∀ (as : List Act) {s s' : State}, (∀ a ∈ as, ok a) → I s → run P as s = some s' → I s'
  | [], _, _, _, hi, hr => by simp only [run, Option.some.injEq] at hr; subst hr; exact hi
  | a :: as, s, _, ha, hi, hr => by
    simp only [run] at hr
    obtain ⟨s1, h1, h2⟩ := Option.bind_eq_some_iff.1 hr
    exact run_inv h as (fun b hb => ha b (by simp [hb])) (h s s1 a hi (ha a (by simp)) (step_trans h1)) h2

theorem run_append {P : Params} : ∀ (as bs : List Act) (s : State),
    run P (as ++ bs) s = (run P as s).bind (run P bs)
  | [], _, _ => rfl
  | a :: as, bs, s => by
    simp only [List.cons_append, run, Option.bind_assoc]
    congr 1
    funext s'
    exact run_append as bs s'

theorem Reach.run {P : Params} {ok : State → Act → Prop} {s : State} (h : Reach P ok s) :
    ∀ (as : List Act) {s' : State}, (∀ a ∈ as, ∀ s, ok s a) → run P as s = some s' → Reach P ok s'
  | [], _, _, hr => by simp only [Conn.run, Option.some.injEq] at hr; subst hr; exact h
  | a :: as, _, ha, hr => by
    simp only [Conn.run] at hr
    obtain ⟨s1, h1, h2⟩ := Option.bind_eq_some_iff.1 hr
    exact Reach.run (h.step a (ha a (by simp) _) h1) as (fun b hb => ha b (by simp [hb])) h2

/-- `s'` can be reached from `s`. -/
def Leads (P : Params) (s s' : State) : Prop := ∃ as, run P as s = some s'

theorem Leads.refl {P : Params} (s : State) : Leads P s s := ⟨[], rfl⟩

theorem Leads.step {P : Params} {s s1 s' : State} (a : Act) (h : step P a s = some s1) (h' : Leads P s1 s') :
    Leads P s s' := by
  obtain ⟨as, h'⟩ := h'
  exact ⟨a :: as, by rw [run, h]; exact h'⟩

theorem Leads.trans {P : Params} {s s1 s' : State} (h : Leads P s s1) (h' : Leads P s1 s') : Leads P s s' := by
  obtain ⟨as, h⟩ := h
  obtain ⟨bs, h'⟩ := h'
  exact ⟨as ++ bs, by rw [run_append, h]; exact h'⟩

theorem Leads.reach {P : Params} {s s' : State} (h : Leads P s s') (hs : Reach P Any s) : Reach P Any s' := by
  obtain ⟨as, h⟩ := h
  exact hs.run as (fun _ _ _ => trivial) h

/-! ### Calls nobody answers -/

/-- `messageLoop` has returned and call `c` waits for a reply. -/
def Stuck (c : Nat) (s : State) : Prop :=
  s.mpc = .exited ∧ (s.calls c).pc = .recv ∧ (s.calls c).chan = none

theorem Stuck.trans {P : Params} {c : Nat} {s s' : State} {a : Act} (h : Stuck c s) (ht : Trans P s a s') :
    Stuck c s' := by
  obtain ⟨h1, h2, h3⟩ := h
  cases ht
  all_goals
    simp only [Stuck, State.set]
    grind

/-- `readLoop` has returned and `messageLoop` waits for the first byte of a frame; no reply is on its
way to any call. -/
def Silent (s : State) : Prop :=
  s.lpc = .exited ∧ s.ring.wpc = .idle ∧ s.ring.rpc = .waitSend ∧ s.ring.closed = false ∧ s.mpc = .inHead ∧
    ∀ c, (s.calls c).chan = none ∧ (s.calls c).pc.replied = false

def Act.isClose : Act → Bool
  | .close _ => true
  | _ => false

theorem ring_stopped {N : Nat} {r r' : Ring.State} {a : Ring.Action} (h1 : r.wpc = .idle) (h2 : r.rpc = .waitSend)
    (h3 : r.closed = false) (ha : inRing a = true) : Ring.step N a r ≠ some r' := by
  cases a <;> simp [inRing] at ha <;> simp [Ring.step, Ring.wStep, Ring.rStep, h1, h2, h3]

theorem Silent.trans {P : Params} {s s' : State} {a : Act} (h : Silent s) (ha : a.isClose = false)
    (ht : Trans P s a s') : Silent s' := by
  obtain ⟨h1, h2, h3, h4, h5, h6⟩ := h
  cases ht
  case ring a r hi hr => exact absurd hr (ring_stopped h2 h3 h4 hi)
  all_goals first
    | cases ha; done
    | simp_all; done
    | (refine ⟨h1, h2, h3, h4, h5, fun j => ?_⟩
       have := h6 j
       simp only [State.set]
       grind [CPc.replied])

/-! ### Calls after `raw.Close` -/

/-- A call that has not written anything when `raw` is closed. -/
def Doomed (c : Nat) (s : State) : Prop :=
  s.rawClosed = true ∧ (s.calls c).pc ≠ .absent ∧ (∀ id, (s.calls c).job.frame id ≠ []) ∧
    ((s.calls c).pc.before = true ∨ (s.calls c).pc = .writing ((s.calls c).frame) ∨
      ∃ e, (s.calls c).pc = .wunlock (some e) ∨ (s.calls c).pc = .done (.flushErr e))

theorem Doomed.trans {P : Params} {c : Nat} {s s' : State} {a : Act} (h : Doomed c s) (ht : Trans P s a s') :
    Doomed c s' := by
  obtain ⟨h1, h2, h3, h4⟩ := h
  cases ht
  all_goals
    simp only [Doomed, State.set]
    grind [CPc.before, CState.frame]

end Kafka.Conn
