import Verif.Ring.Paced
import Verif.Ring.Seq
import Verif.Ring.Wake
import Verif.Ring.Deadlock
import Verif.Ring.Exec
/-!
Properties of the ring buffer (C25–C31).

A schedule is a list of actions (calls, atomic operations of the two goroutines, hand-overs on
the two channels, `Close`); `Reach N ok s` says that some schedule from a new buffer of size
`N`, all of whose actions satisfy `ok`, leads to `s`.
-/
namespace Kafka.Props

open Kafka Kafka.Ring

/-! ## C25: FIFO under concurrency -/

/-- The full claim: what `ReadN` calls have returned is what `WriteN` calls were given, in
order.  (`s.given`: concatenation of the arguments of all `WriteN` calls; `s.taken`:
concatenation of the results of all completed `ReadN` calls.) -/
def C25_statement (N : Nat) (ok : State → Action → Prop) : Prop :=
  ∀ s, Reach N ok s → s.taken <+: s.given

/-- A reader asking for four bytes waits; a writer writes two; the reader is woken and reads
four bytes from the storage without looking at `next` again. -/
def shortSchedule : List Action :=
  [.callR [9, 9, 9, 9] 4, .r, .r, .r, .r, .r,
   .callW [1, 2] 2, .w, .w, .w, .w, .w, .w, .handR,
   .r, .r, .r, .r, .r, .r]

theorem reach_run {N : Nat} {ok : State → Action → Prop} {s : State} (h : Reach N ok s) :
    ∀ (as : List Action) {s' : State}, (∀ a ∈ as, ∀ s, ok s a) → run N as s = some s' → Reach N ok s'
  | [], _, _, hr => by simp only [run, Option.some.injEq] at hr; subst hr; exact h
  | a :: as, _, ha, hr => by
    simp only [run] at hr
    obtain ⟨s1, h1, h2⟩ := Option.bind_eq_some_iff.1 hr
    exact reach_run (h.step a (ha a (by simp) _) h1) as (fun b hb => ha b (by simp [hb])) h2

theorem reach_of_run {N : Nat} {as : List Action} {s : State} (h : run N as init = some s) :
    Reach N Any s := reach_run .init as (fun _ _ _ => trivial) h

/-- The claim is false, whatever the capacity: the schedule above returns two invented bytes. -/
theorem C25_fails {N : Nat} (hN : 5 ≤ N) : ¬C25_statement N Any := by
  intro h
  have e1 : ¬1 = N := by omega
  have e2 : ¬2 = N := by omega
  have e3 : ¬3 = N := by omega
  have e4 : ¬4 = N := by omega
  have e : ∃ s, run N shortSchedule init = some s ∧ s.taken = [1, 2, 0, 0] ∧ s.given = [1, 2] := by
    unfold shortSchedule init
    iterate 20 refine run_next (by
      simp [step, rStep, wStep, rLoop, wLoop, rWaited, wReturn, rReturn, incr, e1, e2, e3, e4]; rfl) ?_
    exact ⟨_, rfl, rfl, rfl⟩
  obtain ⟨s, h1, h2, h3⟩ := e
  have h4 := (h s (reach_of_run h1)).length_le
  simp [h2, h3] at h4

/-- It holds for every schedule in which, whenever a goroutine that has been woken from `Wait`
touches the storage, there is in fact a published unread byte (reader) or a free cell
(writer).  Missing for the full claim: the code does not ensure this, because neither side
reloads the other's position after `Wait`. -/
theorem C25_partial {N : Nat} (hN : 2 ≤ N) : C25_statement N (Paced N) := by
  intro s h
  have hf := h.fifo hN (fun _ _ h => h)
  have hc := h.calls
  have h1 : s.taken <+: s.got := ⟨_, hc.taken.symm⟩
  have h2 : s.put <+: s.given := ⟨_, hc.given.symm⟩
  exact h1.trans (hf.pre.trans h2)

/-- In such schedules nothing is lost either: when neither goroutine is in a call, the bytes
given and not yet returned are, in order, those in the storage from `start` on. -/
theorem C25_held_partial {N : Nat} (hN : 2 ≤ N) {s : State} (h : Reach N (Paced N) s)
    (hw : s.wpc = .idle) (hr : s.rpc = .idle) :
    ∃ k, k + 1 ≤ N ∧ s.next = (s.start + k) % N ∧
      s.given = s.taken ++ (List.range k).map (fun i => s.mem ((s.start + i) % N)) := by
  have hf := h.fifo hN (fun _ _ h => h)
  have hc := h.calls
  have hp := h.pos (by omega)
  have hrel := hp.rrel (by rw [hr]; rfl)
  have hpub := hp.wpub (by rw [hw]; rfl)
  have hg : s.given = s.put := by
    have := hc.given
    rwa [hw, WPc.wrote, List.drop_take_self, List.append_nil] at this
  have ht : s.got = s.taken := by
    have := hc.taken
    rwa [hr, RPc.read, List.take_zero, List.append_nil] at this
  have hle := hf.got_le
  have hroom := hf.room
  refine ⟨s.put.length - s.got.length, by omega, ?_, ?_⟩
  · rw [hp.next, hp.start, hpub, hrel, Nat.mod_add_mod]
    congr 1
    omega
  · rw [hg, ← ht]
    obtain ⟨t, ht'⟩ := hf.pre
    rw [← ht', List.append_right_inj]
    apply List.ext_getElem
    · simp
    · intro i h1 h2
      rw [List.getElem_map, List.getElem_range, hp.start, hrel, Nat.mod_add_mod,
        hf.content _ (by omega) (by rw [← ht', List.length_append]; omega), ← ht']
      rw [List.getD_eq_getElem?_getD, List.getElem?_append_right (by omega)]
      simp [h1]

/-- In particular for every interleaving in which no goroutine is ever handed over to: the
buffer may run full or empty as seen by one side, but the other side has moved on by the time
that side looks again. -/
theorem C25_noWait_partial {N : Nat} (hN : 2 ≤ N) :
    C25_statement N (fun _ a => a ≠ .handR ∧ a ≠ .handW ∧ a ≠ .close) :=
  fun s h => C25_partial hN s (h.paced_of_noWait (by omega))

/-- And for every interleaving in which goroutines do wait, provided each hand-over finds
enough published bytes, or enough free cells, for the rest of the call it resumes. -/
theorem C25_wake_partial {N : Nat} (hN : 2 ≤ N) : C25_statement N (WokenReady N) :=
  fun s h => C25_partial hN s (h.paced (by omega))

/-- A schedule with a hand-over that is paced: the reader waits for two bytes, the writer
writes three, the reader gets two of them. -/
def pacedSchedule : List Action :=
  [.callR [9, 9] 2, .r, .r, .r, .r, .r,
   .callW [1, 2, 3] 3, .w, .w, .w, .w, .w, .w, .w, .handR,
   .r, .r, .r, .r]

/-- Runs a schedule and collects the states before each action. -/
def trace (N : Nat) : List Action → State → List (State × Action)
  | [], _ => []
  | a :: as, s => (s, a) :: ((step N a s).map (trace N as)).getD []

theorem reach_trace {N : Nat} {ok : State → Action → Prop} : ∀ (as : List Action) {s s' : State}, Reach N ok s →
    (∀ x ∈ trace N as s, ok x.1 x.2) → run N as s = some s' → Reach N ok s'
  | [], _, _, h, _, hr => by simp only [run, Option.some.injEq] at hr; subst hr; exact h
  | a :: as, s, _, h, ha, hr => by
    simp only [run] at hr
    obtain ⟨s1, h1, h2⟩ := Option.bind_eq_some_iff.1 hr
    refine reach_trace as (h.step a (ha (s, a) (by simp [trace])) h1) (fun x hx => ha x ?_) h2
    simp [trace, h1, hx]

instance (N : Nat) (s : State) (a : Action) : Decidable (WokenReady N s a) := by
  unfold WokenReady
  split <;> infer_instance

/-- A non-trivial instance of `C25_wake_partial`. -/
example : ∃ s, Reach 16 (WokenReady 16) s ∧ s.given = [1, 2, 3] ∧ s.taken = [1, 2] := by
  have h : ((run 16 pacedSchedule init).map fun s => (s.given, s.taken)) = some ([1, 2, 3], [1, 2]) := by decide
  cases hr : run 16 pacedSchedule init with
  | none => rw [hr] at h; cases h
  | some s =>
    rw [hr] at h
    simp only [Option.map_some, Option.some.injEq, Prod.mk.injEq] at h
    exact ⟨s, reach_trace pacedSchedule .init (by decide) hr, h.1, h.2⟩

/-! ## C26: sequential use -/

/-- A call made while no other call is in progress. -/
inductive Op where
  /-- `WriteN(data, n)` -/
  | write (data : List Byte) (n : Nat)
  /-- `ReadN(dst, n)` -/
  | read (dst : List Byte) (n : Nat)

/-- Specification: a queue holding at most `cap` bytes.  The results of the reads; `none` if a
call would have to block. -/
def queueSpec (cap : Nat) : List Byte → List Op → Option (List (List Byte))
  | _, [] => some []
  | q, .write data n :: ops =>
    if q.length + n ≤ cap then queueSpec cap (q ++ data.take n) ops else none
  | q, .read _ n :: ops =>
    if n ≤ q.length then (queueSpec cap (q.drop n) ops).map (q.take n :: ·) else none

/-- The slices passed are long enough for the counts. -/
def Op.valid : Op → Prop
  | .write data n => n ≤ data.length
  | .read dst n => n ≤ dst.length

/-- The calls one after the other on the buffer; the result of a read is what it adds to
`taken`. -/
def ringOps (N : Nat) : State → List Op → Option (List (List Byte))
  | _, [] => some []
  | s, .write data n :: ops => (seqWrite N data n s).bind fun s' => ringOps N s' ops
  | s, .read dst n :: ops =>
    (seqRead N dst n s).bind fun s' => (ringOps N s' ops).map (s'.taken.drop s.taken.length :: ·)

theorem ringOps_spec {N : Nat} (hN : 2 ≤ N) : ∀ (ops : List Op), (∀ o ∈ ops, o.valid) →
    ∀ (s : State) (out : List (List Byte)), Quiet N s → queueSpec (N - 2) (queue s) ops = some out →
      ringOps N s ops = some out
  | [], _, s, out, _, ho => by simpa [queueSpec, ringOps] using ho
  | .write data n :: ops, hv, s, out, hq, ho => by
    have hn : n ≤ data.length := hv (.write data n) (by simp)
    simp only [queueSpec] at ho
    split at ho
    · obtain ⟨s', h1, h2, h3, h4⟩ := seqWrite_ok hN hq hn (by omega)
      simp only [ringOps, h1, Option.bind_some]
      exact ringOps_spec hN ops (fun o h => hv o (by simp [h])) s' out h2 (by rw [h3]; exact ho)
    · simp at ho
  | .read dst n :: ops, hv, s, out, hq, ho => by
    have hn : n ≤ dst.length := hv (.read dst n) (by simp)
    simp only [queueSpec] at ho
    split at ho
    · obtain ⟨s', h1, h2, h3, h4⟩ := seqRead_ok hN hq hn (by omega)
      obtain ⟨out', h5, h6⟩ := Option.map_eq_some_iff.1 ho
      simp only [ringOps, h1, Option.bind_some]
      rw [ringOps_spec hN ops (fun o h => hv o (by simp [h])) s' out' h2 (by rw [h3]; exact h5)]
      rw [h4, List.drop_left, Option.map_some, h6]
    · simp at ho

/-- Any sequence of calls that a queue of capacity `N - 2` can serve without blocking is served
by a new buffer of size `N` with the same results. -/
theorem C26_queue {N : Nat} (hN : 2 ≤ N) (ops : List Op) (hv : ∀ o ∈ ops, o.valid)
    (out : List (List Byte)) (h : queueSpec (N - 2) [] ops = some out) :
    ringOps N init ops = some out :=
  ringOps_spec hN ops hv init out (Quiet.init hN) h

/-- And no more than that: between calls, a `WriteN` that does not fit in `N - 2` bytes ends
up waiting. -/
theorem C26_full {N : Nat} (hN : 2 ≤ N) {s : State} (h : Quiet N s) (hc : s.closed = false)
    {data : List Byte} {n : Nat} (hn : n ≤ data.length) (hroom : N - 2 < (queue s).length + n) :
    ∃ k s', run N (.callW data n :: List.replicate k .w) s = some s' ∧ s'.wpc = .waitSend ∧
      step N .w s' = none := by
  obtain ⟨k, s', h1, h2, h3⟩ := seqWrite_waits hN h hn (by omega)
  exact ⟨k, s', h1, h2, by simp [step, wStep, h2, h3, hc]⟩

/-- A `ReadN` of more than there is ends up waiting. -/
theorem C26_empty {N : Nat} (hN : 2 ≤ N) {s : State} (h : Quiet N s) (hc : s.closed = false)
    {dst : List Byte} {n : Nat} (hn : n ≤ dst.length) (hdata : (queue s).length < n) :
    ∃ k s', run N (.callR dst n :: List.replicate k .r) s = some s' ∧ s'.rpc = .waitSend ∧
      step N .r s' = none := by
  obtain ⟨k, s', h1, h2, h3⟩ := seqRead_waits hN h hn hdata
  exact ⟨k, s', h1, h2, by simp [step, rStep, h2, h3, hc]⟩

/-- Instance of `C26_queue` in which the storage wraps around twice. -/
example : ringOps 5 init [.write [1, 2, 3] 3, .read [0, 0] 2, .write [4, 5] 2, .read [0, 0, 0] 3,
    .write [6, 7, 8, 9] 3, .read [7, 7, 7] 3] = some [[1, 2], [3, 4, 5], [6, 7, 8]] :=
  C26_queue (by decide) _ (by simp [Op.valid]) _ (by decide)

/-! ## C27: waking the reader -/

/-- The full claim: a reader waiting when a `WriteN` of `n ≥ 1` bytes starts has been resumed when
it returns. -/
def C27_statement (N n : Nat) : Prop :=
  ∀ s data as s', Reach N Any s → s.closed = false → s.rpc = .waitSend →
    run N (.callW data n :: as) s = some s' → .close ∉ as → s'.wpc = .idle → .handR ∈ as

/-- False for single bytes, whatever the capacity: the reader waits for a byte, the writer writes one and
returns, the reader still waits. -/
theorem C27_fails {N : Nat} (hN : 3 ≤ N) : ¬C27_statement N 1 := by
  intro h
  have e1 : ¬1 = N := by omega
  have e2 : ¬2 = N := by omega
  have e : ∃ s, run N [.callR [9] 1, .r, .r, .r, .r, .r] init = some s ∧ s.closed = false ∧ s.rpc = .waitSend ∧
      ∃ s', run N [.callW [1] 1, .w, .w, .w, .w] s = some s' ∧ s'.wpc = .idle := by
    unfold init
    iterate 6 refine run_next (by simp [step, rStep, rLoop]; rfl) ?_
    refine ⟨_, rfl, rfl, rfl, ?_⟩
    iterate 5 refine run_next (by simp [step, wStep, wLoop, wReturn, incr, e1, e2]; rfl) ?_
    exact ⟨_, rfl, rfl⟩
  obtain ⟨s, h1, h2, h3, s', h4, h5⟩ := e
  exact absurd (h s [1] [.w, .w, .w, .w] s' (reach_of_run h1) h2 h3 h4 (by decide) h5) (by decide)

/-- True for two bytes or more, in every interleaving.  Missing for the full claim: `n = 1`. -/
theorem C27_partial {N n : Nat} (hn : 2 ≤ n) : C27_statement N n := by
  intro s data as s' hreach hc hr hrun hcl hidle
  refine Classical.byContradiction fun hno => ?_
  simp only [run] at hrun
  obtain ⟨s1, h1, h2⟩ := Option.bind_eq_some_iff.1 hrun
  have hp := hreach.pair hc
  have hu : Unwoken s1 := by
    simp only [step] at h1
    split at h1
    · rename_i hi
      simp only [Option.some.injEq] at h1
      subst h1
      exact ⟨hc, hr, hn, hp.rset.2 ⟨hr, by rw [hi.1]; rfl⟩⟩
    · simp at h1
  have := Unwoken.run as hno hcl hu h2
  simp [Unwoken, hidle] at this

/-- A hand-over to the reader does resume it: it proceeds to read the storage. -/
theorem C27_resumes {N : Nat} {s s' : State} (h : step N .handR s = some s') : s'.rpc = .get := by
  simp only [step] at h
  split at h
  · split at h
    · simp only [Option.some.injEq] at h; subst h; rfl
    · split at h
      · simp only [Option.some.injEq] at h; subst h; rfl
      · simp at h
  · simp at h

/-- Non-trivial instance of `C27_partial`: the prefix of `pacedSchedule` up to the hand-over. -/
example : ∃ s s', Reach 16 Any s ∧ s.closed = false ∧ s.rpc = .waitSend ∧
    run 16 [.callW [1, 2, 3] 3, .w, .w, .w, .w, .w, .w, .w, .handR] s = some s' ∧ s'.wpc = .idle := by
  have e : ((run 16 [.callR [9, 9] 2, .r, .r, .r, .r, .r] init).bind fun s =>
      (run 16 [.callW [1, 2, 3] 3, .w, .w, .w, .w, .w, .w, .w, .handR] s).map fun s' =>
        (s.closed, s.rpc, s'.wpc)) = some (false, .waitSend, .idle) := by decide
  obtain ⟨s, h1, h2⟩ := Option.bind_eq_some_iff.1 e
  obtain ⟨s', h3, h4⟩ := Option.map_eq_some_iff.1 h2
  simp only [Prod.mk.injEq] at h4
  exact ⟨s, s', reach_of_run h1, h4.1, h4.2.1, h3, h4.2.2⟩

/-! ## C28: deadlock -/

/-- Both goroutines are in calls and nothing but `Close` can ever happen. -/
def Deadlocked (N : Nat) (s : State) : Prop :=
  s.wpc ≠ .idle ∧ s.rpc ≠ .idle ∧ ∀ a, a ≠ .close → step N a s = none

/-- The full claim. -/
def C28_statement (N : Nat) (ok : State → Action → Prop) : Prop :=
  ∀ s, Reach N ok s → s.closed = false → ¬Deadlocked N s

/-- The reader finds the buffer empty; before it sets its flag, the writer fills the buffer, finds
nobody to wake and waits; then the reader waits too. -/
def deadlockSchedule (N : Nat) : List Action :=
  [.callR [9] 1, .r, .r, .r, .r, .callW (List.replicate (N - 1) 1) (N - 1), .w, .w] ++
  List.replicate (N + 3) .w ++ [.r]

/-- The claim is false, whatever the capacity. -/
theorem C28_fails {N : Nat} (hN : 2 ≤ N) : ¬C28_statement N Any := by
  intro h
  have e : ∃ s, run N (deadlockSchedule N) init = some s ∧ s.closed = false ∧ s.wpc = .waitSend ∧
      s.rpc = .waitSend := by
    have e1 : 0 < N - 1 := by omega
    unfold deadlockSchedule init
    simp only [List.cons_append, List.nil_append]
    iterate 8 refine run_next (by simp [step, rStep, rLoop, wStep, wLoop, e1]; rfl) ?_
    refine run_then _ (by
      rw [show N + 3 = N - 2 + 5 by omega]
      exact fills (N - 2) _ rfl (by show 0 + 2 + (N - 2) = N; omega) rfl rfl rfl rfl
        (by show 0 + (N - 2) < N - 1; omega)) ?_
    rintro s1 ⟨h1, h2, h3, h4⟩
    refine run_next (by simp [step, rStep, h2, h3]; rfl) ?_
    exact ⟨_, rfl, h4, h1, rfl⟩
  obtain ⟨s, hr, e1, e2, e3⟩ := e
  refine h s (reach_of_run hr) e1 ⟨by rw [e2]; simp, by rw [e3]; simp, ?_⟩
  intro a ha
  cases a with
  | close => exact absurd rfl ha
  | callW => simp [step, e2]
  | callR => simp [step, e3]
  | w => simp [step, wStep, e1, e2]
  | r => simp [step, rStep, e1, e3]
  | handR => simp [step, e2, e3]
  | handW => simp [step, e2, e3]

/-- There is no deadlock in schedules where a goroutine that has decided to wait sets its flag
before anything else happens.  Missing for the full claim: the code's check and `Wait` are
separate steps. -/
theorem C28_partial {N : Nat} (hN : 2 ≤ N) : C28_statement N Atomic := by
  intro s h hc ⟨hw, hr, hno⟩
  have hl := h.live hc
  obtain ⟨a, ha, hm⟩ := hl.pair.canMove (N := N) hw (hl.not_both hN) hr
  have : a ≠ .close := by
    rintro rfl
    simp at ha
  rw [hno a this] at hm
  simp at hm

/-- In all schedules, the only deadlock is the one in which both goroutines are in `Wait`. -/
theorem C28_only {N : Nat} {s : State} (h : Reach N Any s) (hc : s.closed = false)
    (hd : Deadlocked N s) : s.wpc = .waitSend ∧ s.rpc = .waitSend := by
  refine Classical.byContradiction fun hn => ?_
  obtain ⟨hw, hr, hno⟩ := hd
  obtain ⟨a, ha, hm⟩ := (h.pair hc).canMove (N := N) hw hn hr
  have : a ≠ .close := by
    rintro rfl
    simp at ha
  rw [hno a this] at hm
  simp at hm

instance (s : State) (a : Action) : Decidable (Atomic s a) := by
  unfold Atomic
  infer_instance

/-- Non-trivial instance of `C28_partial`: both goroutines are in calls, the reader waits. -/
example : ∃ s, Reach 4 Atomic s ∧ s.closed = false ∧ s.rpc = .waitSend ∧ s.wpc = .put := by
  have h : ((run 4 [.callR [9] 1, .r, .r, .r, .r, .r, .callW [1, 2] 2, .w, .w] init).map
      fun s => (s.closed, s.rpc, s.wpc)) = some (false, .waitSend, .put) := by decide
  obtain ⟨s, h1, h2⟩ := Option.map_eq_some_iff.1 h
  simp only [Prod.mk.injEq] at h2
  exact ⟨s, reach_trace _ .init (by decide) h1, h2⟩

/-! ## C29: Wait and Release -/

/-- A `Release` that waits for the hand-over can perform it at once. -/
theorem C29_release {N : Nat} {s : State} (h : Reach N Any s) (hc : s.closed = false) :
    (s.wpc = .relRecv ∨ s.wpc = .frelRecv → (step N .handR s).isSome) ∧
    (s.rpc = .relRecv ∨ s.rpc = .frelRecv → (step N .handW s).isSome) := by
  have hp := h.pair hc
  constructor
  · rintro (hw | hw)
    · simp [step, hw, hp.rrel (by rw [hw]; rfl)]
    · simp [step, hw, hp.rrel (by rw [hw]; rfl)]
  · rintro (hr | hr)
    · simp [step, hr, hp.wrel (by rw [hr]; rfl)]
    · simp [step, hr, hp.wrel (by rw [hr]; rfl)]

/-- A `Wait` of the reader: between its start and the read of the storage. -/
def RPc.waiting (pc : RPc) : Prop := pc = .waitCas ∨ pc = .waitSend

def WPc.waiting (pc : WPc) : Prop := pc = .waitCas ∨ pc = .waitSend

/-- No `Wait` returns without a hand-over or `Close`. -/
theorem C29_wait {N : Nat} {s s' : State} {a : Action} (h : Reach N Any s) (hc : s.closed = false)
    (hs : step N a s = some s') :
    (RPc.waiting s.rpc → ¬RPc.waiting s'.rpc → a = .handR) ∧
    (WPc.waiting s.wpc → ¬WPc.waiting s'.wpc → a = .handW) := by
  have hp := h.pair hc
  constructor
  · intro h1 h2
    cases a with
    | handR => rfl
    | callW data n =>
      simp only [step] at hs
      split at hs
      · simp only [Option.some.injEq] at hs; subst hs; exact absurd h1 h2
      · simp at hs
    | callR dst n =>
      simp only [step] at hs
      split at hs
      · rename_i hi; rcases h1 with h1 | h1 <;> simp [hi.1] at h1
      · simp at hs
    | w =>
      have hrpc : s'.rpc = s.rpc := by
        simp only [step] at hs
        unfold wStep at hs
        split at hs
        all_goals (try split at hs)
        all_goals simp only [Option.some.injEq, reduceCtorEq] at hs
        all_goals subst hs
        all_goals (try split)
        all_goals simp [wReleased, wWaited, wReturn]
      rw [hrpc] at h2
      exact absurd h1 h2
    | r =>
      simp only [step] at hs
      rcases h1 with h1 | h1
      · unfold rStep at hs
        simp only [h1, Option.some.injEq] at hs
        rw [if_neg (by intro hh; have := (hp.rset.1 hh).1; simp [h1] at this)] at hs
        subst hs
        exact absurd (Or.inr rfl) h2
      · simp [rStep, h1, hc] at hs
    | handW =>
      simp only [step] at hs
      split at hs
      · split at hs
        · rename_i hi; rcases h1 with h1 | h1 <;> simp [hi] at h1
        · split at hs
          · rename_i hi; rcases h1 with h1 | h1 <;> simp [hi] at h1
          · simp at hs
      · simp at hs
    | close => simp only [step, Option.some.injEq] at hs; subst hs; exact absurd h1 h2
  · intro h1 h2
    cases a with
    | handW => rfl
    | callR dst n =>
      simp only [step] at hs
      split at hs
      · simp only [Option.some.injEq] at hs; subst hs; exact absurd h1 h2
      · simp at hs
    | callW data n =>
      simp only [step] at hs
      split at hs
      · rename_i hi; rcases h1 with h1 | h1 <;> simp [hi.1] at h1
      · simp at hs
    | r =>
      have hwpc : s'.wpc = s.wpc := by
        simp only [step] at hs
        unfold rStep at hs
        split at hs
        all_goals (try split at hs)
        all_goals simp only [Option.some.injEq, reduceCtorEq] at hs
        all_goals subst hs
        all_goals (try split)
        all_goals simp [rWaited, rReturn]
      rw [hwpc] at h2
      exact absurd h1 h2
    | w =>
      simp only [step] at hs
      rcases h1 with h1 | h1
      · unfold wStep at hs
        simp only [h1, Option.some.injEq] at hs
        rw [if_neg (by intro hh; have := (hp.wset.1 hh).1; simp [h1] at this)] at hs
        subst hs
        exact absurd (Or.inr rfl) h2
      · simp [wStep, h1, hc] at hs
    | handR =>
      simp only [step] at hs
      split at hs
      · split at hs
        · rename_i hi; rcases h1 with h1 | h1 <;> simp [hi] at h1
        · split at hs
          · rename_i hi; rcases h1 with h1 | h1 <;> simp [hi] at h1
          · simp at hs
      · simp at hs
    | close => simp only [step, Option.some.injEq] at hs; subst hs; exact absurd h1 h2

/-- A hand-over ends exactly one `Wait` and exactly one `Release`. -/
theorem C29_hand {N : Nat} {s s' : State} :
    (step N .handR s = some s' → RPc.waiting s.rpc ∧ ¬RPc.waiting s'.rpc ∧
      s.wpc.releasing = true ∧ s'.wpc.releasing = false) ∧
    (step N .handW s = some s' → WPc.waiting s.wpc ∧ ¬WPc.waiting s'.wpc ∧
      s.rpc.releasing = true ∧ s'.rpc.releasing = false) := by
  constructor
  · intro h
    simp only [step] at h
    split at h
    · rename_i hr
      split at h
      · rename_i hw
        simp only [Option.some.injEq] at h; subst h
        exact ⟨Or.inr hr, by simp [RPc.waiting, wReleased, rWaited], by rw [hw]; rfl, rfl⟩
      · split at h
        · rename_i hw
          simp only [Option.some.injEq] at h; subst h
          exact ⟨Or.inr hr, by simp [RPc.waiting, wReturn, rWaited], by rw [hw]; rfl, rfl⟩
        · simp at h
    · simp at h
  · intro h
    simp only [step] at h
    split at h
    · rename_i hw
      split at h
      · rename_i hr
        simp only [Option.some.injEq] at h; subst h
        refine ⟨Or.inr hw, ?_, by rw [hr]; rfl, by simp [wWaited, RPc.releasing]⟩
        rintro (h | h) <;> rcases wLoop_pc _ with h' | h' <;> rw [wWaited, h'] at h <;> cases h
      · split at h
        · rename_i hr
          simp only [Option.some.injEq] at h; subst h
          refine ⟨Or.inr hw, ?_, by rw [hr]; rfl, by simp [wWaited, rReturn, RPc.releasing]⟩
          rintro (h | h) <;> rcases wLoop_pc _ with h' | h' <;> rw [wWaited, h'] at h <;> cases h
        · simp at h
    · simp at h

/-- Non-trivial instance of `C29_release`: the state of `pacedSchedule` before its hand-over. -/
example : ∃ s, Reach 16 Any s ∧ s.closed = false ∧ s.wpc = .frelRecv ∧ s.rpc = .waitSend := by
  have h : ((run 16 [.callR [9, 9] 2, .r, .r, .r, .r, .r, .callW [1, 2, 3] 3, .w, .w, .w, .w, .w, .w, .w] init).map
      fun s => (s.closed, s.wpc, s.rpc)) = some (false, .frelRecv, .waitSend) := by decide
  obtain ⟨s, h1, h2⟩ := Option.map_eq_some_iff.1 h
  simp only [Prod.mk.injEq] at h2
  exact ⟨s, reach_of_run h1, h2⟩

/-! ## C30: Close -/

/-- After `Close`, in every state: a `WriteN` in progress always has a next operation, whatever the
reader does, and performs at most `7 n + 5` operations before it returns. -/
theorem C30_write {N : Nat} {s s' : State} (hc : s.closed = true) (as : List Action)
    (ha : ∀ a ∈ as, a.isCallW = false) (hr : run N as s = some s') :
    (s'.wpc = .idle ∨ (step N .w s').isSome) ∧ as.countP Action.ofWriter ≤ 7 * s.wn + 10 ∧
      (s.wpc = .load1 → as.countP Action.ofWriter ≤ 7 * s.wn + 5) := by
  refine ⟨?_, ?_, ?_⟩
  · by_cases h : s'.wpc = .idle
    · exact Or.inl h
    · exact Or.inr (wStep_enabled (run_closed as hr hc) h)
  · have := run_wCost as ha hr
    have : wCost s ≤ 7 * s.wn + 10 := by
      unfold wCost
      cases s.wpc <;> simp only [WPc.cost] <;> omega
    omega
  · intro h
    have := run_wCost as ha hr
    have : wCost s = 7 * s.wn + 5 := by unfold wCost; rw [h]; rfl
    omega

theorem C30_read {N : Nat} {s s' : State} (hc : s.closed = true) (as : List Action)
    (ha : ∀ a ∈ as, a.isCallR = false) (hr : run N as s = some s') :
    (s'.rpc = .idle ∨ (step N .r s').isSome) ∧ as.countP Action.ofReader ≤ 7 * s.rn + 10 ∧
      (s.rpc = .load1 → as.countP Action.ofReader ≤ 7 * s.rn + 5) := by
  refine ⟨?_, ?_, ?_⟩
  · by_cases h : s'.rpc = .idle
    · exact Or.inl h
    · exact Or.inr (rStep_enabled (run_closed as hr hc) h)
  · have := run_rCost as ha hr
    have : rCost s ≤ 7 * s.rn + 10 := by
      unfold rCost
      cases s.rpc <;> simp only [RPc.cost] <;> omega
    omega
  · intro h
    have := run_rCost as ha hr
    have : rCost s = 7 * s.rn + 5 := by unfold rCost; rw [h]; rfl
    omega

/-- The deadlock of `C28_fails`, closed: both calls return. -/
example : ((run 4 (deadlockSchedule 4 ++ [.close, .w, .w, .r, .r, .r, .r, .r]) init).map
    fun s => (s.wpc, s.rpc)) = some (.idle, .idle) := by decide

/-! ## C31: indices -/

/-- In every reachable state, also after `Close` or a premature wake-up: the positions are inside
the storage, the byte about to be accessed is inside the storage and inside the caller's slice,
and the caller's bytes beyond the count are as they were. -/
theorem C31_indices {N : Nat} (hN : 1 ≤ N) {s : State} (h : Reach N Any s) :
    s.next < N ∧ s.start < N ∧
    (s.wpc = .put → s.wpos < N ∧ s.wi < s.wdata.length) ∧
    (s.rpc = .get → s.rpos < N ∧ s.ri < s.rdst.length) ∧
    s.rdst.drop s.rn = s.rorig.drop s.rn := by
  have hp := h.pos (by omega)
  have hc := h.calls
  refine ⟨?_, ?_, ?_, ?_, hc.rorig⟩
  · rw [hp.next]; exact Nat.mod_lt _ (by omega)
  · rw [hp.start]; exact Nat.mod_lt _ (by omega)
  · intro hw
    have h1 := hc.wbody (Or.inr hw)
    have h2 := hc.wlen
    refine ⟨?_, by omega⟩
    rw [hp.wpos (by rw [hw]; rfl)]; exact Nat.mod_lt _ (by omega)
  · intro hr
    have h1 := hc.rbody (by rw [hr]; rfl)
    have h2 := hc.rlen
    refine ⟨?_, by omega⟩
    rw [hp.rpos (by rw [hr]; rfl)]; exact Nat.mod_lt _ (by omega)

/-- Non-trivial instance: after the premature wake-up of `shortSchedule` the reader is about to
read beyond what was written. -/
example : ∃ s, Reach 16 Any s ∧ s.rpc = .get ∧ s.pub < s.got.length := by
  have h : ((run 16 (shortSchedule.take 17) init).map
      fun s => (s.rpc, s.pub, s.got.length)) = some (.get, 2, 3) := by decide
  obtain ⟨s, h1, h2⟩ := Option.map_eq_some_iff.1 h
  simp only [Prod.mk.injEq] at h2
  exact ⟨s, reach_of_run h1, h2.1, by omega⟩

end Kafka.Props
