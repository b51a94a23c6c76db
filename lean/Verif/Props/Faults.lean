import Verif.Props.Close
/-!
Properties C57 and C58: after a write to the connection has failed; registrations of calls that have returned.
-/
set_option linter.unusedSimpArgs false

namespace Kafka.Props

open Conn

/-! ## C57: after a failed write -/

/-- The call has not yet begun to encode its request. -/
def early : CPc → Bool
  | .absent | .add | .rlock | .insert | .runlock | .wlock | .encode => true
  | _ => false

/-- Bytes are only being written while no write has failed. -/
def Writes (s : Conn.State) : Prop := ∀ c rest, (s.calls c).pc = .writing rest → s.werr = none

theorem writes_trans {P : Params} {a : Act} {s s' : Conn.State} (hl : Conn.Locks s) (h : Writes s) (ht : Trans P s a s') : Writes s' := by
  intro j rest
  have hj := h j
  have lj := (hl.callW j).1
  have lc := fun c => (hl.callW c).1
  cases ht <;> simp only [State.set] <;> grind [CPc.holdsW]

theorem Reach.writes {P : Params} {ok : Conn.State → Act → Prop} {s : Conn.State} (h : Conn.Reach P ok s) : Writes s :=
  h.inv (I := Writes) (fun _ _ h => by simp [Conn.init] at h) fun hr hi _ ht => writes_trans hr.locks hi ht

/-- Once a write to the connection has failed, nothing more is written to it, and every call that had not begun to encode
its request returns that error, whatever happens. -/
theorem C57_sticky {P : Params} {s : Conn.State} {e : WErr} (h : Conn.Reach P Conn.Any s) (he : s.werr = some e) (as : List Act)
    {s' : Conn.State} (hr : Conn.run P as s = some s') :
    s'.werr = some e ∧ s'.wire = s.wire ∧
      ∀ c, early (s.calls c).pc = true → ∀ o, (s'.calls c).pc = .done o → o = .flushErr e := by
  let I : Conn.State → Prop := fun x => Conn.Locks x ∧ Writes x ∧ x.werr = some e ∧ x.wire = s.wire ∧
    ∀ c, early (s.calls c).pc = true → early (x.calls c).pc = true ∨ (x.calls c).pc = .wunlock (some e) ∨
      (x.calls c).pc = .done (.flushErr e)
  have hi : I s' := by
    refine run_inv (I := I) (ok := fun _ => True) ?_ as (fun _ _ => trivial)
      ⟨h.locks, Reach.writes h, he, rfl, fun c hc => .inl hc⟩ hr
    rintro x x' a ⟨hl, hw, h1, h2, h3⟩ - ht
    refine ⟨hl.trans ht, writes_trans hl hw ht, ?_, ?_, ?_⟩
    · clear h3 hl h2
      cases ht <;> simp only [State.set] <;> first | exact h1 | grind [Writes]
    · clear h3 hl
      cases ht <;> simp only [State.set] <;> first | exact h2 | grind [Writes]
    · intro c hc
      have h3 := h3 c hc
      clear hl h2
      have hw := hw c
      cases ht <;> simp only [State.set] <;> first | exact h3 | grind [early]
  obtain ⟨_, _, h1, h2, h3⟩ := hi
  refine ⟨h1, h2, fun c hc o ho => ?_⟩
  have := h3 c hc
  rw [ho] at this
  simp only [early, reduceCtorEq, Bool.false_eq_true, false_or, CPc.done.injEq] at this
  exact this

/-- The peer accepts two bytes of the first request; a second call finds the connection broken. -/
def brokenPipe : List Act :=
  [.start 0 sampleJob] ++ List.replicate 6 (.call 0) ++ [.writeErr 0 2 ⟨7⟩, .call 0]

def afterBroken : List Act := [.start 1 sampleJob] ++ List.replicate 7 (.call 1)

example : ∃ s s', Conn.Reach small Conn.Any s ∧ s.werr = some ⟨7⟩ ∧ s.wire = [0, 0] ∧ early (s.calls 1).pc = true ∧
    Conn.run small afterBroken s = some s' ∧ (s'.calls 1).pc = .done (.flushErr ⟨7⟩) := by
  have h : ((Conn.run small brokenPipe (Conn.init small)).any fun s => decide (s.werr = some ⟨7⟩ ∧ s.wire = [0, 0] ∧
      early (s.calls 1).pc = true) && (Conn.run small afterBroken s).any fun s' => match (s'.calls 1).pc with
        | .done (.flushErr e) => decide (e = ⟨7⟩)
        | _ => false) = true := by decide +kernel
  obtain ⟨s, h1, h2⟩ := (Option.any_eq_true _ _).1 h
  obtain ⟨h2, h3⟩ := Bool.and_eq_true _ _ ▸ h2
  obtain ⟨s', h4, h5⟩ := (Option.any_eq_true _ _).1 h3
  obtain ⟨h6, h7, h8⟩ := of_decide_eq_true h2
  split at h5
  · rename_i hpc
    rw [of_decide_eq_true h5] at hpc
    exact ⟨s, s', connReach_of_run h1, h6, h7, h8, h4, hpc⟩
  · cases h5

/-! ## C58: registrations -/

/-- The full claim: a call that has returned is not registered in `c.requests` any more. -/
def C58_statement (P : Params) (returned : Outcome → Prop) : Prop :=
  ∀ s, Conn.Reach P Conn.Any s → ∀ c o, (s.calls c).pc = .done o → returned o → ∀ id, s.requests id ≠ some c

/-- It holds for calls that return a reply, or the error of decoding it.  Missing for the full claim: calls whose request
could not be written. -/
theorem C58_partial {P : Params} : C58_statement P (fun o => ∃ d, o = .reply d) := by
  rintro s h c _ hpc ⟨d, rfl⟩ id hid
  have h1 := (h.tokens.map id c hid).2.2.2
  rw [h.tokens.replied c (by rw [hpc]; rfl)] at h1
  cases h1

/-- A call that has returned its reply. -/
example : ∃ s, Conn.Reach small Conn.Any s ∧ (∃ d, (s.calls 1).pc = .done (.reply d)) ∧ s.requests 1 = some 0 := by
  have h : ((Conn.run small twoCalls (Conn.init small)).any fun s => decide (s.requests 1 = some 0) && match (s.calls 1).pc with
      | .done (.reply _) => true
      | _ => false) = true := by decide +kernel
  obtain ⟨s, h1, h2⟩ := (Option.any_eq_true _ _).1 h
  obtain ⟨h2, h3⟩ := Bool.and_eq_true _ _ ▸ h2
  split at h3
  · exact ⟨s, connReach_of_run h1, ⟨_, by assumption⟩, of_decide_eq_true h2⟩
  · cases h3

/-- `n` calls have failed to write their requests, and all of them are still registered. -/
structure Leaked (e : WErr) (n : Nat) (s : Conn.State) : Prop where
  crashed : s.crashed = false
  werr : s.werr = some e
  readLock : s.readLock = none
  writeLock : s.writeLock = none
  id : s.id = Int32.ofNat n
  failed : ∀ c, c < n → (s.calls c).pc = .done (.flushErr e) ∧ s.requests (Int32.ofNat (c + 1)) = some c
  absent : ∀ c, n ≤ c → (s.calls c).pc = .absent

theorem id_ne {c n : Nat} (hc : c < n) (hn : n < 2 ^ 32) : Int32.ofNat c ≠ Int32.ofNat n := by
  intro h
  have := congrArg (fun i => i.toBitVec.toNat) h
  simp at this
  omega

theorem Leaked.next {P : Params} {e : WErr} {n : Nat} {s : Conn.State} (h : Leaked e n s) (hn : n + 1 < 2 ^ 32) (job : Job) :
    ∃ s', Leads P s s' ∧ Leaked e (n + 1) s' := by
  obtain ⟨h1, h2, h3, h4, h5, h6, h7⟩ := h
  have ha := h7 n (Nat.le_refl _)
  refine Leads.next (.start n job) (by simp [Conn.step, h1, ha]; rfl) ?_
  iterate 7 refine Leads.next (.call n) (by simp [Conn.step, callStep, h1, h2, h3, h4, State.set]; rfl) ?_
  refine ⟨_, .refl _, ⟨rfl, rfl, rfl, rfl, ?_, fun c hc => ?_, fun c hc => ?_⟩⟩
  · simp [h5, Int32.ofNat_add]
  · have hid : s.id + 1 = Int32.ofNat (n + 1) := by rw [h5, Int32.ofNat_add]; rfl
    by_cases hcn : c = n
    · subst hcn
      simp [upd, hid]
    · have := h6 c (by omega)
      have hne := id_ne (show c < n by omega) (by omega)
      have h8 := this.2
      rw [Int32.ofNat_add] at h8
      simp [upd, hid, hcn, this.1, hne]
      exact h8
  · have := h7 c (by omega)
    simp [show c ≠ n by omega, this]

theorem leaked_first {P : Params} (e : WErr) : ∃ s, Leads P (Conn.init P) s ∧ Leaked e 1 s := by
  unfold Conn.init Ring.init
  refine Leads.next (.start 0 sampleJob) (by simp [Conn.step]; rfl) ?_
  iterate 6 refine Leads.next (.call 0) (by simp [Conn.step, callStep, State.set, sampleJob]; rfl) ?_
  have ew : Wire.int32 1 = [0, 0, 0, 1] := by rw [wire_int32]; rfl
  refine Leads.next (.writeErr 0 0 e) (by simp [Conn.step, callStep, State.set, ew]; rfl) ?_
  refine Leads.next (.call 0) (by simp [Conn.step, callStep, State.set]; rfl) ?_
  refine ⟨_, .refl _, ⟨rfl, rfl, rfl, rfl, rfl, fun c hc => ?_, fun c hc => ?_⟩⟩
  · obtain rfl : c = 0 := by omega
    exact ⟨rfl, rfl⟩
  · simp [show c ≠ 0 by omega]

theorem leaked_all {P : Params} (e : WErr) : ∀ n, n + 1 < 2 ^ 32 → ∃ s, Leads P (Conn.init P) s ∧ Leaked e (n + 1) s
  | 0, _ => leaked_first e
  | n + 1, hn => by
    obtain ⟨s, h1, h2⟩ := leaked_all e n (by omega)
    obtain ⟨s', h3, h4⟩ := h2.next hn sampleJob
    exact ⟨s', h1.trans h3, h4⟩

/-- Calls on a connection that is broken leave their registrations behind: any number of calls (up to 2³² - 1) can all have
returned, and all of them are still registered. -/
theorem C58_grows {P : Params} (n : Nat) (hn : n < 2 ^ 32) : ∃ s, Conn.Reach P Conn.Any s ∧
    ∀ c, c < n → ∃ e id, (s.calls c).pc = .done (.flushErr e) ∧ s.requests id = some c := by
  match n with
  | 0 => exact ⟨_, .init, fun c hc => by omega⟩
  | n + 1 =>
    obtain ⟨s, h1, h2⟩ := leaked_all (P := P) ⟨0⟩ n hn
    exact ⟨s, h1.reach .init, fun c hc => ⟨_, _, h2.failed c hc⟩⟩

/-- The claim is false. -/
theorem C58_fails {P : Params} : ¬C58_statement P (fun _ => True) := by
  intro h
  obtain ⟨s, h1, h2⟩ := C58_grows (P := P) 1 (by omega)
  obtain ⟨e, id, h3, h4⟩ := h2 0 (by omega)
  exact h s h1 0 _ h3 trivial id h4

end Kafka.Props
