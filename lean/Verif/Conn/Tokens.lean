import Verif.Conn.Locks
/-!
Invariants of the connection machine: each registered call is answered at most once.
-/
namespace Kafka.Conn

open Kafka

/-- The call has been put into the map. -/
def CPc.registered : CPc → Bool
  | .absent | .add | .rlock | .insert => false
  | _ => true

/-- The call has returned its reply. -/
def CPc.replied : CPc → Bool
  | .done (.reply _) => true
  | _ => false

/-- The call whose request `messageLoop` has taken out of the map and not yet answered. -/
def MPc.taken : MPc → Option Nat
  | .runlock _ c => c
  | .decode _ c | .send _ c => some c
  | _ => none

/-- `messageLoop` has run the decoder and is about to send. -/
def MPc.sending : MPc → Bool
  | .send _ _ => true
  | _ => false

/-- A call is in the map, or taken, or its reply is in its channel, or returned; never two of these. -/
structure Tokens (s : State) : Prop where
  looked : ∀ id d c, s.mpc = .delete id d c → c = s.requests id
  map : ∀ id c, s.requests id = some c → (s.calls c).id = id ∧ (s.calls c).pc.registered = true ∧
    s.mpc.taken ≠ some c ∧ (s.calls c).decodes = 0
  taken : ∀ c, s.mpc.taken = some c → (s.calls c).pc.registered = true ∧ (s.calls c).chan = none ∧
    (s.calls c).pc.replied = false ∧ (s.calls c).decodes = if s.mpc.sending then 1 else 0
  chan : ∀ c, (s.calls c).chan ≠ none → (s.calls c).pc.registered = true ∧ (s.calls c).pc.replied = false ∧
    (s.calls c).decodes = 1
  replied : ∀ c, (s.calls c).pc.replied = true → (s.calls c).decodes = 1
  once : ∀ c, (s.calls c).decodes ≤ 1
  before : ∀ c, (s.calls c).pc.registered = false → (s.calls c).decodes = 0

theorem Tokens.init (P : Params) : Tokens (init P) := by
  constructor <;> simp [Conn.init, MPc.taken, CPc.replied]

set_option maxHeartbeats 4000000 in
theorem Tokens.trans {P : Params} {a : Act} {s s' : State} (h : Tokens s) (hl : Locks s) (ht : Trans P s a s') :
    Tokens s' := by
  obtain ⟨h1, h2, h3, h4, h5, h6, h7⟩ := h
  obtain ⟨l1, l2, l3⟩ := hl
  cases ht
  all_goals
    constructor
    · intro id d c
      simp only [State.set, upd]
      grind [CPc.holdsR, MPc.holdsR]
    · intro id c
      simp only [State.set, upd]
      grind [CPc.registered, MPc.taken, CPc.replied, MPc.sending]
    · intro c
      simp only [State.set]
      grind [CPc.registered, MPc.taken, CPc.replied, MPc.sending]
    · intro c
      simp only [State.set]
      grind [CPc.registered, MPc.taken, CPc.replied, MPc.sending]
    · intro c
      simp only [State.set]
      grind [CPc.registered, MPc.taken, CPc.replied, MPc.sending]
    · intro c
      simp only [State.set]
      grind [CPc.registered, MPc.taken, CPc.replied, MPc.sending]
    · intro c
      simp only [State.set]
      grind [CPc.registered, MPc.taken, CPc.replied, MPc.sending]

theorem Reach.tokens {P : Params} {ok : State → Act → Prop} {s : State} (h : Reach P ok s) : Tokens s :=
  h.inv (Tokens.init P) fun hr h _ ht => h.trans hr.locks ht

end Kafka.Conn
