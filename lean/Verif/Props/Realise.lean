import Verif.Props.OneByOne
import Verif.Conn.Realise
/-!
Property C70, the converse: everything the model of client.go allows to become of a request can happen on a connection.
-/
namespace Kafka.Props

open Kafka Kafka.Conn Kafka.Client

theorem any_reach {P : Params} {ok : Conn.State → Act → Prop} {s : Conn.State} (h : Conn.Reach P ok s) :
    Conn.Reach P Conn.Any s := by
  induction h with
  | init => exact .init
  | step a _ _ hst ih => exact ih.step a trivial hst

theorem done_stays {P : Params} {s s' : Conn.State} {a : Act} (ht : Conn.Trans P s a s') {c : Nat} {o : Outcome}
    (h : (s.calls c).pc = .done o) : (s'.calls c).pc = .done o := by
  cases ht <;> simp only [State.set] <;> first | exact h | (split <;> simp_all)

theorem present_stays {P : Params} {s s' : Conn.State} {a : Act} (ht : Conn.Trans P s a s') {c : Nat}
    (h : (s.calls c).pc ≠ .absent) : (s'.calls c).pc ≠ .absent := by
  cases ht <;> simp only [State.set] <;> first | exact h | (split <;> simp_all)

theorem present_run {P : Params} : ∀ (as : List Act) {s s' : Conn.State}, Conn.run P as s = some s' → ∀ {c : Nat},
    (s.calls c).pc ≠ .absent → (s'.calls c).pc ≠ .absent
  | [], s, s', hr, c, h => by simp only [Conn.run, Option.some.injEq] at hr; subst hr; exact h
  | a :: as, s, s', hr, c, h => by
    simp only [Conn.run] at hr
    obtain ⟨s1, h3, h4⟩ := Option.bind_eq_some_iff.1 hr
    exact present_run as h4 (present_stays (step_trans h3) h)

/-- Steps during which at most one call is made, when those before have returned. -/
theorem alone_run {P : Params} {c : Nat} : ∀ (as : List Act) {s s' : Conn.State}, Conn.run P as s = some s' →
    Conn.Reach P OneByOne s → (∀ j, j < c → ∃ o, (s.calls j).pc = .done o) → (∀ j, c < j → (s'.calls j).pc = .absent) →
    Conn.Reach P OneByOne s'
  | [], s, s', hr, h, _, _ => by simp only [Conn.run, Option.some.injEq] at hr; subst hr; exact h
  | a :: as, s, s', hr, h, h1, h2 => by
    simp only [Conn.run] at hr
    obtain ⟨s1, h3, h4⟩ := Option.bind_eq_some_iff.1 hr
    have ht := step_trans h3
    refine alone_run as h4 (h.step a ?_ h3) (fun j hj => (h1 j hj).imp fun o ho => done_stays ht ho) h2
    cases ht
    case start k job hk =>
      have hk1 : ¬k < c := fun hlt => by obtain ⟨o, ho⟩ := h1 k hlt; rw [hk] at ho; cases ho
      have hk2 : ¬c < k := fun hlt => present_run as h4 (c := k) (by simp [State.set]) (h2 k hlt)
      obtain rfl : k = c := by omega
      refine ⟨h1, fun j hj => Classical.byContradiction fun hne => ?_⟩
      rcases Nat.lt_or_eq_of_le hj with hlt | rfl
      · refine present_run as h4 (c := j) ?_ (h2 j hlt)
        simp only [State.set, if_neg (show j ≠ k by omega)]; exact hne
      · exact hne hk
    all_goals trivial

/-- Calls 0 to n - 1 have been made with the given arguments, and the body of the reply to call `i` was `bodies i`. -/
structure AnsweredBy (n : Nat) (jobs : Nat → Job) (bodies : Nat → List Byte) (s : Conn.State) : Prop where
  made : ∀ i, i < n → (s.calls i).job = jobs i
  given : ∀ i, i < n → ∃ d stale, (s.calls i).pc = .done (.reply d) ∧ replyOf (.reply d) = .frame (bodies i) stale

/-- A body fits, with its correlation id, into the buffer of `messageLoop`, and with its length into the ring buffer. -/
def FitsIn (P : Params) (body : List Byte) : Prop :=
  body.length + 4 ≤ P.buf ∧ body.length + 10 ≤ P.ring ∧ body.length + 4 < 2 ^ 31

theorem given_frame {n : Nat} {id : Int32} {body : List Byte} {d : Decoder} (h : Given n (Wire.int32 id ++ body) d) :
    ∃ stale, replyOf (.reply d) = .frame body stale := by
  have hl : (Wire.int32 id).length = 4 := by rw [wire_int32]; rfl
  refine ⟨d.raw.drop d.length.toNat, ?_⟩
  unfold replyOf
  simp only
  have e1 : d.length.toNat = (Wire.int32 id ++ body).length := by rw [h.length]; rfl
  rw [e1, ← List.prefix_iff_eq_take.1 h.raw, List.drop_left' hl]

/-- Any calls can be made one at a time, and any replies to them can be received. -/
theorem C70_answered {P : Params} (hN : 2 ≤ P.ring) (hP : 4 ≤ P.buf) (n : Nat) (jobs : Nat → Job)
    (hok : ∀ i, i < n → ∀ d, (jobs i).panics d = false) (bodies : Nat → List Byte) (hfit : ∀ i, i < n → FitsIn P (bodies i)) :
    ∃ s, Conn.Reach P OneByOne s ∧ Conn.Calm P s ∧ AnsweredBy n jobs bodies s ∧ ∀ i, n ≤ i → (s.calls i).pc = .absent := by
  induction n with
  | zero => exact ⟨_, .init, .init hN, ⟨fun i hi => by omega, fun i hi => by omega⟩, fun i _ => rfl⟩
  | succ n ih =>
    obtain ⟨s, hr, hc, ha, hab⟩ := ih (fun i hi => hok i (by omega)) fun i hi => hfit i (by omega)
    obtain ⟨s1, l1, h1⟩ := hc.ask (hab n (Nat.le_refl n)) (jobs n)
    obtain ⟨f1, f2, f3⟩ := hfit n (Nat.lt_succ_self n)
    have hl : (Wire.int32 (s.id + 1) ++ bodies n).length = (bodies n).length + 4 := by
      rw [List.length_append, wire_int32]; simp [be32]; omega
    obtain ⟨s2, l2, d, h2⟩ := h1.calm.answer hN hP (l1.reach (any_reach hr)) h1.registered h1.pc
      (payload := Wire.int32 (s.id + 1) ++ bodies n) (List.prefix_append _ _) (by omega) (by omega) (by omega)
      (fun d _ => by rw [h1.job]; exact hok n (Nat.lt_succ_self n) d)
    have hoth : ∀ j, j ≠ n → s2.calls j = s.calls j := fun j hj => (h2.others j hj).trans (h1.others j hj)
    have hab2 : ∀ i, n < i → (s2.calls i).pc = .absent := fun i hi => by rw [hoth i (by omega)]; exact hab i (by omega)
    obtain ⟨as, hrun⟩ := l1.trans l2
    refine ⟨s2, alone_run as hrun hr (fun j hj => ?_) hab2, h2.calm, ⟨fun i hi => ?_, fun i hi => ?_⟩,
      fun i hi => hab2 i (by omega)⟩
    · obtain ⟨d, _, e, _⟩ := ha.given j hj; exact ⟨_, e⟩
    · by_cases e : i = n
      · subst e; rw [h2.job, h1.job]
      · rw [hoth i e]; exact ha.made i (by omega)
    · by_cases e : i = n
      · subst e
        obtain ⟨stale, hs⟩ := given_frame h2.given
        exact ⟨d, stale, h2.pc, hs⟩
      · rw [hoth i e]; exact ha.given i (by omega)

/-- What the model of client.go says about a request has happened to call `c`. -/
def Happened (P : Params) (c : Nat) (s : Conn.State) : Reply → Prop
  | .lost e => (s.calls c).pc = .done (.flushErr ⟨e.code⟩)
  | .frame body _ => ∃ d stale, (s.calls c).pc = .done (.reply d) ∧ replyOf (.reply d) = .frame body stale
  | .never => s.crashed = false ∧
      ∀ as s', (∀ a ∈ as, a.isClose = false) → Conn.run P as s = some s' → (s'.calls c).pc = .recv
  | .crash => s.crashed = true ∧ (s.calls c).pc = .recv

/-- Everything the model of client.go allows to become of a request can happen on a connection, whatever requests were
made and answered before: the request may not be written; a reply may arrive, with any body that fits into the buffers;
none may ever arrive; what arrives may end the program.  What a reply finds behind itself in the buffer is not chosen
here. -/
theorem C70_realised {P : Params} (hP : 4 ≤ P.buf) (hN : P.buf + 7 ≤ P.ring) (h31 : P.buf < 2 ^ 31 - 1) (n : Nat)
    (jobs : Nat → Job) (hok : ∀ i, i ≤ n → ∀ d, (jobs i).panics d = false) (hne : ∀ id, (jobs n).frame id ≠ [])
    (bodies : Nat → List Byte) (hfit : ∀ i, i < n → (bodies i).length + 4 ≤ P.buf) (r : Reply)
    (hr : ∀ body stale, r = .frame body stale → body.length + 4 ≤ P.buf) :
    ∃ s, Conn.Reach P OneByOne s ∧ AnsweredBy n jobs bodies s ∧ (s.calls n).job = jobs n ∧
      (∀ i, n < i → (s.calls i).pc = .absent) ∧ Happened P n s r := by
  have hN2 : 2 ≤ P.ring := by omega
  have fits : ∀ {b : List Byte}, b.length + 4 ≤ P.buf → FitsIn P b := fun h => ⟨h, by omega, by omega⟩
  obtain ⟨s, h, hc, ha, hab⟩ := C70_answered hN2 hP n jobs (fun i hi => hok i (by omega)) bodies fun i hi => fits (hfit i hi)
  -- what is the same in all four cases
  have last : ∀ {s' : Conn.State}, Leads P s s' → (∀ i, i ≠ n → s'.calls i = s.calls i) →
      Conn.Reach P OneByOne s' ∧ AnsweredBy n jobs bodies s' ∧ ∀ i, n < i → (s'.calls i).pc = .absent := by
    intro s' ⟨as, hrun⟩ hoth
    have hab' : ∀ i, n < i → (s'.calls i).pc = .absent := fun i hi => by rw [hoth i (by omega)]; exact hab i (by omega)
    refine ⟨alone_run as hrun h (fun j hj => ?_) hab', ⟨fun i hi => ?_, fun i hi => ?_⟩, hab'⟩
    · obtain ⟨d, _, e, _⟩ := ha.given j hj; exact ⟨_, e⟩
    · rw [hoth i (by omega)]; exact ha.made i hi
    · rw [hoth i (by omega)]; exact ha.given i hi
  cases r with
  | lost e =>
    obtain ⟨s', l, g1, g2, g3, _⟩ := hc.lost (hab n (Nat.le_refl n)) (jobs n) (hne _) ⟨e.code⟩
    obtain ⟨k1, k2, k3⟩ := last l g3
    exact ⟨s', k1, k2, g2, k3, g1⟩
  | frame body stale =>
    obtain ⟨s', k1, _, ⟨k2, k3⟩, k4⟩ := C70_answered hN2 hP (n + 1) jobs (fun i hi => hok i (by omega))
      (fun i => if i = n then body else bodies i) fun i hi => by
        by_cases e : i = n
        · simp only [e, if_true]; exact fits (hr body stale rfl)
        · simp only [e, if_false]; exact fits (hfit i (by omega))
    refine ⟨s', k1, ⟨fun i hi => k2 i (by omega), fun i hi => ?_⟩, k2 n (Nat.lt_succ_self n), fun i hi => k4 i hi, ?_⟩
    · have := k3 i (by omega); rwa [if_neg (by omega)] at this
    · have := k3 n (by omega); rwa [if_pos rfl] at this
  | never =>
    obtain ⟨s1, l1, h1⟩ := hc.ask (hab n (Nat.le_refl n)) (jobs n)
    obtain ⟨s2, l2, g1, g2, _, g4⟩ := h1.calm.mute hP (l1.reach (any_reach h)) h1.registered h1.pc
    obtain ⟨k1, k2, k3⟩ := last (l1.trans l2) fun i hi => by rw [g2]; exact h1.others i hi
    exact ⟨s2, k1, k2, by rw [g2, h1.job], k3, g4, fun as s' has hrun => g1.run has hrun⟩
  | crash =>
    obtain ⟨s1, l1, h1⟩ := hc.ask (hab n (Nat.le_refl n)) (jobs n)
    obtain ⟨s2, l2, g1, g2, _⟩ := h1.calm.crash hP hN (l1.reach (any_reach h)) (size := Int32.ofInt (P.buf + 1)) (by
      rw [Int32.toInt_ofInt, Int.bmod_eq_of_le (by simp only [Int32.size]; omega) (by simp only [Int32.size]; omega)]
      omega) (data := List.replicate (P.buf + 1) 0) List.length_replicate
    obtain ⟨k1, k2, k3⟩ := last (l1.trans l2) fun i hi => by rw [g2]; exact h1.others i hi
    exact ⟨s2, k1, k2, by rw [g2, h1.job], k3, g1, by rw [g2, h1.pc]⟩

/-- Non-trivial instance: at the sizes of the code, two calls are answered and the third waits for ever. -/
example : ∃ s, Conn.Reach actual OneByOne s ∧ (∃ d, (s.calls 1).pc = .done (.reply d)) ∧ Happened actual 2 s .never := by
  obtain ⟨s, h1, h2, _, _, h3⟩ := C70_realised (P := actual) (by decide) (by decide) (by decide) 2 (fun _ => sampleJob)
    (fun _ _ _ => rfl) (fun id => by simp [sampleJob, wire_int32, be32]) (fun _ => [1, 2, 3]) (fun _ _ => by decide) .never
    (fun _ _ h => by cases h)
  obtain ⟨d, _, h4, _⟩ := h2.given 1 (by decide)
  exact ⟨s, h1, ⟨d, h4⟩, h3⟩

end Kafka.Props
