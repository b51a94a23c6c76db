import Verif.Props.Alias
import Verif.Props.Faults

/-!
Property C58: exactly which calls that have returned are still registered.
-/
namespace Kafka.Props

open Conn

/-- The reply of a call is decoded from a frame that has its id. -/
theorem _root_.Kafka.Conn.Reach.decodedFrom {P : Params} {ok : Conn.State → Act → Prop} {s : Conn.State}
    (h : Conn.Reach P ok s) :
    ∀ c, (s.calls c).decodes ≠ 0 → ∃ f ∈ s.frames, Wire.int32 (s.calls c).id <+: f := by
  refine h.inv (I := fun s => ∀ c, (s.calls c).decodes ≠ 0 → ∃ f ∈ s.frames, Wire.int32 (s.calls c).id <+: f)
    (by simp [Conn.init]) ?_
  intro s s' a hr hi hok ht
  clear hok
  have hf := hr.frames
  have hk := hr.tokens
  cases ht
  case add c hp =>
    intro c' hc'
    by_cases hx : c' = c
    · subst hx
      simp only [State.set, if_true] at hc'
      exact absurd (hk.before c' (by rw [hp]; rfl)) (by simpa using hc')
    · simp only [State.set, if_neg hx] at hc' ⊢
      exact hi c' (by simpa [hx] using hc')
  case decode d c hm hp =>
    intro c' hc'
    by_cases hx : c' = c
    · subst hx
      obtain ⟨f, h1, h2, _⟩ := hf.taken c' d (by rw [hm]; rfl)
      exact ⟨f, h1, by simpa [State.set] using h2⟩
    · simp only [State.set, if_neg hx] at hc' ⊢
      exact hi c' (by simpa [hx] using hc')
  all_goals
    intro c' hc'
    first
    | exact hi c' hc'
    | exact (hi c' hc').imp fun f hf => ⟨List.mem_append_left _ hf.1, hf.2⟩
    | (simp only [State.set] at hc' ⊢
       split at hc'
       · rename_i hx; subst hx; simpa using hi _ hc'
       · rename_i hx; simpa [hx] using hi _ hc')

/-- Exactly which calls are still registered, in all schedules: of a call that has returned, and whose id no other call
has had, there is an entry exactly when `messageLoop` has not taken it to decode a reply with it, nor has done so.  Its
request could then not be written. -/
theorem C58_exact {P : Params} {s : Conn.State} (h : Conn.Reach P Conn.Any s) {c : Nat} {o : Outcome}
    (hpc : (s.calls c).pc = .done o)
    (hid : ∀ c', c' ≠ c → (s.calls c').pc.registered = true → (s.calls c').id ≠ (s.calls c).id) :
    ((∃ id, s.requests id = some c) ↔ s.mpc.taken ≠ some c ∧ (s.calls c).decodes = 0) ∧
      ((∃ id, s.requests id = some c) → ∃ e, o = .flushErr e) := by
  refine ⟨⟨fun ⟨id, hx⟩ => (h.tokens.map id c hx).2.2, fun ⟨h1, h2⟩ => ?_⟩, fun ⟨id, hx⟩ => ?_⟩
  · rcases h.registered.where_ c (by rw [hpc]; rfl) with h3 | h3 | h3 | ⟨c', h3, h4, h5⟩
    · exact ⟨_, h3⟩
    · exact absurd h3 h1
    · omega
    · exact absurd h5 (hid c' h3 h4)
  · cases o with
    | flushErr e => exact ⟨e, rfl⟩
    | reply d => exact absurd hx (C58_partial s h c _ hpc ⟨d, rfl⟩ id)

/-- So an entry stays for ever, whatever else happens on the connection, unless the peer sends a frame with its id all
the same: in every execution, a call whose request could not be written is
registered as long as no frame with its id has been read and no other call has had its id. -/
theorem C58_leaks {P : Params} {s : Conn.State} (h : Conn.Reach P Conn.Any s) {c : Nat} {e : WErr}
    (hpc : (s.calls c).pc = .done (.flushErr e))
    (hid : ∀ c', c' ≠ c → (s.calls c').pc.registered = true → (s.calls c').id ≠ (s.calls c).id)
    (hf : ∀ f ∈ s.frames, ¬ Wire.int32 (s.calls c).id <+: f) : s.requests (s.calls c).id = some c := by
  have ht : s.mpc.taken ≠ some c := fun ht => by
    have hr : ∃ d, s.mpc.reply = some (c, d) := by
      cases hm : s.mpc <;> rw [hm] at ht <;> simp_all [MPc.taken, MPc.reply]
    obtain ⟨d, hr⟩ := hr
    obtain ⟨f, h1, h2, _⟩ := h.frames.taken c d hr
    exact hf f h1 h2
  have hd : (s.calls c).decodes = 0 := Classical.byContradiction fun hd => by
    obtain ⟨f, h1, h2⟩ := h.decodedFrom c hd
    exact hf f h1 h2
  obtain ⟨id, hx⟩ := (C58_exact h hpc hid).1.2 ⟨ht, hd⟩
  rw [(h.tokens.map id c hx).1]
  exact hx

/-- The request of the first call is written in part and fails; the peer then answers it all the same. -/
def answeredBroken : List Act :=
  brokenPipe ++ [.read [0, 0, 0, 4, 0, 0, 0, 1]] ++ List.replicate 12 (.ring .w) ++ [.readNext, .message] ++
  List.replicate 8 (.ring .r) ++ [.message] ++ List.replicate 8 (.ring .r) ++ List.replicate 7 .message

/-- The hypotheses of `C58_leaks` are met after a write has failed; and those of `C58_exact` in both cases: the entry goes
when the peer sends a frame with the id. -/
example : ((Conn.run small (brokenPipe ++ afterBroken) (Conn.init small)).map fun s =>
      ((s.calls 0).pc, [(s.calls 0).id, (s.calls 1).id], s.frames, s.requests 1)) =
      some (.done (.flushErr ⟨7⟩), [1, 2], [], some 0) ∧
    ((Conn.run small answeredBroken (Conn.init small)).map fun s =>
      ((s.calls 0).pc, s.frames, s.requests 1, (s.calls 0).decodes)) =
      some (.done (.flushErr ⟨7⟩), [[0, 0, 0, 1]], none, 1) := by
  constructor <;> decide +kernel

end Kafka.Props
