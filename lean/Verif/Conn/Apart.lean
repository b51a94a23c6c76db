import Verif.Conn.Registered
/-!
Invariant of the connection machine: as long as no two calls outstanding have the same id, a call that has been put into the
map stays there until its reply is dispatched.
-/
namespace Kafka.Conn

open Kafka

/-- No two calls outstanding have the same id. -/
def Distinct (s : State) : Prop :=
  ∀ c c', (s.calls c).pc.numbered = true → (s.calls c').pc.numbered = true →
    (∀ o, (s.calls c).pc ≠ .done o) → (∀ o, (s.calls c').pc ≠ .done o) → (s.calls c).id = (s.calls c').id → c = c'

/-- Where the request of call `c`, which is outstanding, is. -/
def Kept (s : State) : Prop :=
  ∀ c, (s.calls c).pc.registered = true → (∀ o, (s.calls c).pc ≠ .done o) →
    s.requests (s.calls c).id = some c ∨ s.mpc.taken = some c ∨ (s.calls c).decodes = 1

theorem Kept.init (P : Params) : Kept (init P) := fun _ h => by simp [Conn.init, CPc.registered] at h

set_option maxHeartbeats 4000000 in
theorem Kept.trans {P : Params} {a : Act} {s s' : State} (h : Kept s) (hd : Distinct s) (hl : Locks s) (ht : Tokens s)
    (hst : Trans P s a s') : Kept s' := by
  obtain ⟨l1, l2, l3⟩ := hl
  obtain ⟨t1, t2, t3, t4, t5, t6, t7⟩ := ht
  intro c
  have hc := h c
  have hn : ∀ j, (s.calls j).pc.registered = true → (s.calls j).pc.numbered = true := fun j hj => by
    cases hp : (s.calls j).pc <;> rw [hp] at hj <;> first | (cases hj; done) | rfl
  have hins : ∀ j, (s.calls j).pc = .insert → (s.calls c).pc.registered = true → (∀ o, (s.calls c).pc ≠ .done o) →
      (s.calls j).id ≠ (s.calls c).id := fun j hj hr hno he => by
    have := hd j c (by rw [hj]; rfl) (hn c hr) (by rw [hj]; simp) hno he
    subst this
    rw [hj] at hr
    cases hr
  clear hd h hn
  cases hst
  all_goals
    simp only [State.set, upd]
    grind [CPc.registered, MPc.taken, MPc.sending]

theorem Reach.kept {P : Params} {ok : State → Act → Prop} {s : State} (h : Reach P ok s) (hok : ∀ s a, ok s a → Distinct s) :
    Kept s :=
  h.inv (Kept.init P) fun hr h hx ht => h.trans (hok _ _ hx) hr.locks hr.tokens ht

/-- Among the first 2^32 calls of a connection no two have the same id. -/
theorem Reach.distinct {P : Params} {ok : State → Act → Prop} {s : State} (h : Reach P ok s) (hn : s.count ≤ 2 ^ 32) :
    Distinct s := by
  intro c c' hc hc' _ _ hid
  have h1 := h.ids.call c hc
  have h2 := h.ids.call c' hc'
  refine h.ids.inj c c' hc hc' ?_
  have h3 : Int32.ofNat (s.calls c).seq = Int32.ofNat (s.calls c').seq := h1.1.symm.trans (hid.trans h2.1)
  have h4 : (Int32.ofNat (s.calls c).seq).toBitVec = (Int32.ofNat (s.calls c').seq).toBitVec := by rw [h3]
  have h5 := congrArg BitVec.toNat h4
  simp at h5
  omega

theorem Trans.count {P : Params} {a : Act} {s s' : State} (h : Trans P s a s') : s.count ≤ s'.count := by
  cases h <;> simp [State.set] <;> omega

theorem Reach.apart {P : Params} {ok : State → Act → Prop} {s : State} (h : Reach P ok s) (hn : s.count ≤ 2 ^ 32) :
    Reach P (fun s _ => Distinct s) s := by
  induction h with
  | init => exact .init
  | step a hr hok hst ih =>
    have := Nat.le_trans (step_trans hst).count hn
    exact (ih this).step a (hr.distinct this) hst

end Kafka.Conn
