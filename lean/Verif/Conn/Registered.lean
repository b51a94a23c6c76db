import Verif.Conn.Tokens
/-!
Invariant of the connection machine: a call that has been put into the map stays there until its
reply is dispatched or a call with the same id replaces it.
-/
namespace Kafka.Conn

open Kafka

/-- A call with the same id as call `c`. -/
def Shared (s : State) (c : Nat) : Prop :=
  ∃ c', c' ≠ c ∧ (s.calls c').pc.registered = true ∧ (s.calls c').id = (s.calls c).id

/-- Where the request of call `c` is. -/
structure Registered (s : State) : Prop where
  where_ : ∀ c, (s.calls c).pc.registered = true →
    s.requests (s.calls c).id = some c ∨ s.mpc.taken = some c ∨ (s.calls c).decodes = 1 ∨ Shared s c

theorem Shared.trans {P : Params} {a : Act} {s s' : State} {c : Nat} (h : Shared s c)
    (hc : (s.calls c).pc.registered = true) (ht : Trans P s a s') : Shared s' c := by
  have hk : ∀ j, (s.calls j).pc.registered = true →
      (s'.calls j).pc.registered = true ∧ (s'.calls j).id = (s.calls j).id := by
    cases ht
    all_goals
      intro j
      try simp only [State.set]
      grind [CPc.registered]
  obtain ⟨c', h1, h2, h3⟩ := h
  exact ⟨c', h1, (hk c' h2).1, by rw [(hk c' h2).2, (hk c hc).2, h3]⟩

theorem Registered.init (P : Params) : Registered (init P) :=
  ⟨fun _ h => by simp [Conn.init, CPc.registered] at h⟩

set_option maxHeartbeats 4000000 in
theorem Registered.trans {P : Params} {a : Act} {s s' : State} (h : Registered s) (hl : Locks s) (ht : Tokens s)
    (hst : Trans P s a s') : Registered s' := by
  obtain ⟨h⟩ := h
  obtain ⟨l1, l2, l3⟩ := hl
  obtain ⟨t1, t2, t3, t4, t5, t6, t7⟩ := ht
  have hsh : ∀ c, (s.calls c).pc.registered = true → Shared s c → Shared s' c :=
    fun c hc h => h.trans hc hst
  have hins : ∀ j c, (s.calls j).pc = .insert → (s'.calls j).pc.registered = true → j ≠ c →
      (s'.calls j).id = (s'.calls c).id → Shared s' c := fun j c _ h1 h2 h3 => ⟨j, h2, h1, h3⟩
  refine ⟨?_⟩
  revert hsh hins
  generalize Shared s' = q
  intro hsh hins
  cases hst
  all_goals
    intro c
    have hc := h c
    have hs := hsh c
    clear hsh h
    revert hins
    simp only [State.set, upd]
    grind [CPc.registered, MPc.taken, MPc.sending]

theorem Reach.registered {P : Params} {ok : State → Act → Prop} {s : State} (h : Reach P ok s) : Registered s :=
  h.inv (Registered.init P) fun hr h _ ht => h.trans hr.locks hr.tokens ht

end Kafka.Conn
