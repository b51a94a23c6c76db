import Verif.Conn.Trans
/-!
Invariants of the connection machine: locks and correlation ids.
-/
namespace Kafka.Conn

open Kafka

theorem set_calls (s : State) (c : Nat) (x : CState) (j : Nat) :
    (s.set c x).calls j = if j = c then x else s.calls j := rfl
theorem set_calls_self (s : State) (c : Nat) (x : CState) : (s.set c x).calls c = x := if_pos rfl
theorem set_calls_ne (s : State) {c j : Nat} (x : CState) (h : j ≠ c) : (s.set c x).calls j = s.calls j := if_neg h

/-- The call holds `readLock`. -/
def CPc.holdsR : CPc → Bool
  | .insert | .runlock => true
  | _ => false

/-- The call holds `writeLock`. -/
def CPc.holdsW : CPc → Bool
  | .encode | .writing _ | .wunlock _ => true
  | _ => false

/-- `messageLoop` holds `readLock`. -/
def MPc.holdsR : MPc → Bool
  | .lookup _ _ | .delete _ _ _ | .runlock _ _ => true
  | _ => false

/-- The locks are held by those that are between locking and unlocking. -/
structure Locks (s : State) : Prop where
  callR : ∀ c, (s.calls c).pc.holdsR = true ↔ s.readLock = some (.call c)
  loopR : s.mpc.holdsR = true ↔ s.readLock = some .loop
  callW : ∀ c, (s.calls c).pc.holdsW = true ↔ s.writeLock = some c

theorem Locks.init (P : Params) : Locks (init P) :=
  ⟨fun _ => by simp [Conn.init, CPc.holdsR], by simp [Conn.init, MPc.holdsR],
   fun _ => by simp [Conn.init, CPc.holdsW]⟩

theorem Locks.trans {P : Params} {a : Act} {s s' : State} (h : Locks s) (ht : Trans P s a s') : Locks s' := by
  obtain ⟨h1, h2, h3⟩ := h
  cases ht
  all_goals
    constructor
    · intro j
      simp only [State.set]
      have := h1 j
      grind [CPc.holdsR, MPc.holdsR]
    · simp only [State.set]
      grind [CPc.holdsR, MPc.holdsR]
    · intro j
      simp only [State.set]
      have := h3 j
      grind [CPc.holdsW]

theorem Reach.locks {P : Params} {ok : State → Act → Prop} {s : State} (h : Reach P ok s) : Locks s :=
  h.inv (Locks.init P) fun _ h _ ht => h.trans ht

/-! ### Correlation ids -/

/-- The call has its correlation id. -/
def CPc.numbered : CPc → Bool
  | .absent | .add => false
  | _ => true

/-- Ids are given out in order, one to each call. -/
structure Ids (s : State) : Prop where
  id : s.id = Int32.ofNat s.count
  call : ∀ c, (s.calls c).pc.numbered = true →
    (s.calls c).id = Int32.ofNat (s.calls c).seq ∧ 1 ≤ (s.calls c).seq ∧ (s.calls c).seq ≤ s.count
  inj : ∀ c c', (s.calls c).pc.numbered = true → (s.calls c').pc.numbered = true →
    (s.calls c).seq = (s.calls c').seq → c = c'

theorem Ids.init (P : Params) : Ids (init P) :=
  ⟨rfl, fun _ h => by simp [Conn.init, CPc.numbered] at h, fun _ _ h => by simp [Conn.init, CPc.numbered] at h⟩

theorem Ids.trans {P : Params} {a : Act} {s s' : State} (h : Ids s) (ht : Trans P s a s') : Ids s' := by
  obtain ⟨h1, h2, h3⟩ := h
  cases ht
  case add c hp =>
    have h0 : Int32.ofNat (s.count + 1) = s.id + 1 := by rw [Int32.ofNat_add, h1]; rfl
    constructor
    · exact h0.symm
    · intro j
      simp only [State.set]
      have := h2 j
      grind [CPc.numbered]
    · intro j j'
      simp only [State.set]
      have := h2 j
      have := h2 j'
      have := h3 j j'
      grind [CPc.numbered]
  all_goals
    constructor
    · exact h1
    · intro j
      simp only [State.set]
      have := h2 j
      grind [CPc.numbered]
    · intro j j'
      simp only [State.set]
      have := h3 j j'
      grind [CPc.numbered]

theorem Reach.ids {P : Params} {ok : State → Act → Prop} {s : State} (h : Reach P ok s) : Ids s :=
  h.inv (Ids.init P) fun _ h _ ht => h.trans ht

end Kafka.Conn
