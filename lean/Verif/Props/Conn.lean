import Verif.Conn.Wires
import Verif.Conn.Registered
import Verif.Conn.Stream
import Verif.Conn.Realise
import Verif.Props.Ring
import Verif.Props.Broker
/-!
Properties of a connection (C32–C38).

`Reach P ok s`: some schedule of a new connection, all of whose actions satisfy `ok`, leads to `s`.
A schedule contains calls of `Do` and `Close` by any number of goroutines, each operation of each
goroutine, the results of `raw.Read` and `raw.Write`.  `P` are the sizes of the ring buffer and of the
loops' buffers; those of the code are `actual`.
-/
namespace Kafka.Props

open Kafka Kafka.Conn

/-- The code's sizes satisfy the hypotheses on sizes below. -/
example : 4 ≤ actual.buf ∧ 2 ≤ actual.ring ∧ actual.buf + 7 ≤ actual.ring := by decide

theorem connReach_of_run {P : Params} {as : List Act} {s : Conn.State} (h : Conn.run P as (Conn.init P) = some s) :
    Conn.Reach P Conn.Any s := Conn.Reach.init.run as (fun _ _ _ => trivial) h

/-- Runs a schedule and collects the states before each action. -/
def connTrace (P : Params) : List Act → Conn.State → List (Conn.State × Act)
  | [], _ => []
  | a :: as, s => (s, a) :: ((Conn.step P a s).map (connTrace P as)).getD []

theorem connReach_trace {P : Params} {ok : Conn.State → Act → Prop} : ∀ (as : List Act) {s s' : Conn.State},
    Conn.Reach P ok s → (∀ x ∈ connTrace P as s, ok x.1 x.2) → Conn.run P as s = some s' → Conn.Reach P ok s'
  | [], _, _, h, _, hr => by simp only [Conn.run, Option.some.injEq] at hr; subst hr; exact h
  | a :: as, s, _, h, ha, hr => by
    simp only [Conn.run] at hr
    obtain ⟨s1, h1, h2⟩ := Option.bind_eq_some_iff.1 hr
    refine connReach_trace as (h.step a (ha (s, a) (by simp [connTrace])) h1) (fun x hx => ha x ?_) h2
    simp [connTrace, h1, hx]

/-! ### A schedule used in the examples -/

/-- Sizes for the examples. -/
def small : Params := ⟨16, 8⟩

def sampleJob : Job := ⟨fun id => Wire.int32 id, fun _ => false⟩

/-- A call of `Do`, up to the wait for the reply; `raw` accepts its bytes in two parts. -/
def callDo (c : Nat) : List Act :=
  [.start c sampleJob] ++ List.replicate 6 (.call c) ++ [.write c 3, .write c 1] ++ List.replicate 2 (.call c)

/-- `raw.Read` returns eight bytes, `readLoop` puts them into the ring buffer. -/
def deliver (bs : List Byte) : List Act := [.read bs] ++ List.replicate 12 (.ring .w) ++ [.readNext]

/-- `messageLoop` reads a frame with four bytes of payload. -/
def fetch : List Act :=
  [.message] ++ List.replicate 8 (.ring .r) ++ [.message] ++ List.replicate 8 (.ring .r) ++ [.message]

/-- Two calls; the second is answered first. -/
def twoCalls : List Act :=
  callDo 0 ++ callDo 1 ++ deliver [0, 0, 0, 4, 0, 0, 0, 2] ++ fetch ++ List.replicate 6 .message ++ [.call 1]

/-! ## C32: a reply goes to the call that asked for it -/

/-- A call that returns through its reply has decoded a frame the loop read, whose correlation id is
the one in the request this call has put, completely, on the wire. -/
theorem C32_reply {P : Params} {s : Conn.State} (h : Conn.Reach P Conn.Any s) {c : Nat} {d : Decoder}
    (hd : (s.calls c).pc = .done (.reply d)) :
    (∃ payload ∈ s.frames, Wire.int32 (s.calls c).id <+: payload ∧ payload <+: d.raw ∧
      d.length = payload.length ∧ d.offset = 4 ∧ d.raw.length = P.buf) ∧
    (s.calls c).sent = (s.calls c).job.frame (s.calls c).id := by
  exact ⟨h.frames.done c d hd, (h.wires.flushed c (by rw [hd]; rfl)).2⟩

theorem ofNat_mod {a b : Nat} (h : Int32.ofNat a = Int32.ofNat b) : a % 2 ^ 32 = b % 2 ^ 32 := by
  have h1 : (Int32.ofNat a).toBitVec = (Int32.ofNat b).toBitVec := by rw [h]
  have h2 := congrArg BitVec.toNat h1
  simpa using h2

/-- The full claim on ids: two calls that have their id and have not returned do not share it. -/
def C32_ids_statement (P : Params) : Prop :=
  ∀ s, Conn.Reach P Conn.Any s → ∀ c c', (s.calls c).pc.numbered = true → (s.calls c').pc.numbered = true →
    (∀ o, (s.calls c).pc ≠ .done o) → (∀ o, (s.calls c').pc ≠ .done o) →
    (s.calls c).id = (s.calls c').id → c = c'

/-- Two calls (returned or not) share an id only if a multiple of 2^32 calls were made in between; in
particular never among the first 2^32 calls of a connection.  Missing for the full claim: ids are
reused after 2^32 calls without looking at the calls outstanding. -/
theorem C32_ids_partial {P : Params} {s : Conn.State} (h : Conn.Reach P Conn.Any s) {c c' : Nat}
    (hc : (s.calls c).pc.numbered = true) (hc' : (s.calls c').pc.numbered = true)
    (hid : (s.calls c).id = (s.calls c').id) :
    (s.calls c).seq % 2 ^ 32 = (s.calls c').seq % 2 ^ 32 ∧ (s.count ≤ 2 ^ 32 → c = c') := by
  have h1 := h.ids.call c hc
  have h2 := h.ids.call c' hc'
  have h3 := ofNat_mod (h1.1.symm.trans (hid.trans h2.1))
  refine ⟨h3, fun hn => h.ids.inj c c' hc hc' ?_⟩
  omega

/-- Invariant of the schedule of `C32_ids_fails`: call 0 has its id and nothing else, calls 1 to
`n - 1` have returned an error. -/
structure Failing (P : Params) (n : Nat) (s : Conn.State) : Prop where
  reach : Conn.Reach P Conn.Any s
  crashed : s.crashed = false
  count : s.count = n
  readLock : s.readLock = none
  writeLock : s.writeLock = none
  werr : s.werr = some ⟨0⟩
  first : (s.calls 0).pc = .rlock ∧ (s.calls 0).id = 1
  mid : ∀ j, 1 ≤ j → j < n → (s.calls j).pc = .done (.flushErr ⟨0⟩)
  later : ∀ j, n ≤ j → (s.calls j).pc = .absent

theorem Failing.two (P : Params) : ∃ s, Failing P 2 s := by
  have h : (Conn.run P [.start 0 sampleJob, .call 0, .start 1 sampleJob, .call 1, .call 1, .call 1, .call 1, .call 1,
      .call 1, .writeErr 1 0 ⟨0⟩, .call 1] (Conn.init P)).isSome = true := rfl
  obtain ⟨s, hs⟩ := Option.isSome_iff_exists.1 h
  have hr := connReach_of_run hs
  refine ⟨s, ?_⟩
  cases hs
  refine ⟨hr, rfl, rfl, rfl, rfl, rfl, ⟨rfl, rfl⟩, ?_, ?_⟩
  · intro j h1 h2
    have : j = 1 := by omega
    subst this; rfl
  · intro j hj
    have h0 : j ≠ 0 := by omega
    have h1 : j ≠ 1 := by omega
    simp [State.set, Conn.init, h0, h1]

theorem Failing.next {P : Params} {n : Nat} {s : Conn.State} (h : Failing P n s) (hn : 2 ≤ n) :
    ∃ s', Failing P (n + 1) s' := by
  have hp := h.later n (Nat.le_refl _)
  have e : ∃ s', Conn.run P (.start n sampleJob :: List.replicate 7 (.call n)) s = some s' ∧
      s'.crashed = false ∧ s'.count = s.count + 1 ∧ s'.readLock = none ∧ s'.writeLock = none ∧
      s'.werr = some ⟨0⟩ ∧ (s'.calls n).pc = .done (.flushErr ⟨0⟩) ∧ ∀ j, j ≠ n → s'.calls j = s.calls j := by
    simp [Conn.run, Conn.step, callStep, h.crashed, hp, State.set, h.readLock, h.writeLock, h.werr]
    intro j hj
    simp [hj]
  obtain ⟨s', e1, e2, e3, e4, e5, e6, e7, e8⟩ := e
  refine ⟨s', h.reach.run _ (fun _ _ _ => trivial) e1, e2, by rw [e3, h.count], e4, e5, e6, ?_, ?_, ?_⟩
  · rw [e8 0 (by omega)]; exact h.first
  · intro j h1 h2
    by_cases hj : j = n
    · subst hj; exact e7
    · rw [e8 j hj]; exact h.mid j h1 (by omega)
  · intro j hj
    rw [e8 j (by omega)]
    exact h.later j (by omega)

theorem Failing.all (P : Params) (n : Nat) : ∃ s, Failing P (n + 2) s := by
  induction n with
  | zero => exact Failing.two P
  | succ n ih =>
    obtain ⟨s, h⟩ := ih
    exact h.next (by omega)

/-- The claim is false, even with only two calls outstanding: the first call stops before registering,
2^32 - 1 calls fail, the next call gets the first call's id. -/
theorem C32_ids_fails (P : Params) : ∃ s, Conn.Reach P Conn.Any s ∧ ∃ c c', c ≠ c' ∧
    (s.calls c).pc = .rlock ∧ (s.calls c').pc = .rlock ∧ (s.calls c).id = (s.calls c').id ∧
    ∀ j, j ≠ c → j ≠ c' → (s.calls j).pc = .absent ∨ ∃ o, (s.calls j).pc = .done o := by
  obtain ⟨s, h⟩ := Failing.all P (2 ^ 32 - 2)
  have hn : (2 : Nat) ^ 32 - 2 + 2 = 2 ^ 32 := rfl
  rw [hn] at h
  have hp := h.later (2 ^ 32) (Nat.le_refl _)
  have e : ∃ s', Conn.run P [.start (2 ^ 32) sampleJob, .call (2 ^ 32)] s = some s' ∧
      (s'.calls (2 ^ 32)).pc = .rlock ∧ (s'.calls (2 ^ 32)).id = s.id + 1 ∧
      ∀ j, j ≠ 2 ^ 32 → s'.calls j = s.calls j := by
    simp only [Conn.run, Conn.step, callStep, h.crashed, hp, State.set]
    refine ⟨_, rfl, rfl, rfl, fun j hj => ?_⟩
    simp only [if_neg hj]
  obtain ⟨s', e1, e2, e3, e4⟩ := e
  refine ⟨s', h.reach.run _ (fun _ _ _ => trivial) e1, 0, 2 ^ 32, by decide, ?_, e2, ?_, ?_⟩
  · rw [e4 0 (by decide)]; exact h.first.1
  · rw [e4 0 (by decide), h.first.2, e3, h.reach.ids.id, h.count]
    rfl
  · intro j h0 h1
    rw [e4 j h1]
    by_cases hj : j < 2 ^ 32
    · exact .inr ⟨_, h.mid j (by omega) hj⟩
    · exact .inl (h.later j (by omega))

theorem C32_ids_false (P : Params) : ¬C32_ids_statement P := by
  intro h
  obtain ⟨s, h1, c, c', h2, h3, h4, h5, _⟩ := C32_ids_fails P
  exact h2 (h s h1 c c' (by rw [h3]; rfl) (by rw [h4]; rfl) (by rw [h3]; simp) (by rw [h4]; simp) h5)

/-- Non-trivial instance: two calls outstanding, the second, with id 2, has its reply. -/
example : ∃ s d, Conn.Reach small Conn.Any s ∧ (s.calls 1).pc = .done (.reply d) ∧ (s.calls 1).id = 2 ∧
    (s.calls 0).pc = .recv ∧ s.frames = [[0, 0, 0, 2]] := by
  have h : ((Conn.run small twoCalls (Conn.init small)).bind fun s =>
      match (s.calls 1).pc, (s.calls 0).pc with
      | .done (.reply d), .recv => if (s.calls 1).id = 2 ∧ s.frames = [[0, 0, 0, 2]] then some d.raw else none
      | _, _ => none) = some [0, 0, 0, 2, 0, 0, 0, 0] := by decide +kernel
  obtain ⟨s, h1, h2⟩ := Option.bind_eq_some_iff.1 h
  split at h2
  · split at h2
    · rename_i d hd h0 hi
      exact ⟨s, d, connReach_of_run h1, hd, hi.1, h0, hi.2⟩
    · cases h2
  · cases h2

/-! ## C33: at most one reply, and the dispatcher never blocks on one -/

/-- The decode function of a call runs at most once; the call is then no longer in the map, so that
repeated replies are not for it. -/
theorem C33_once {P : Params} {s : Conn.State} (h : Conn.Reach P Conn.Any s) (c : Nat) :
    (s.calls c).decodes ≤ 1 ∧ ((s.calls c).decodes = 1 → ∀ id, s.requests id ≠ some c) := by
  refine ⟨h.tokens.once c, fun hd id hm => ?_⟩
  have := (h.tokens.map id c hm).2.2.2
  omega

/-- Sending a reply never blocks, whatever has become of the caller. -/
theorem C33_send {P : Params} {s : Conn.State} (h : Conn.Reach P Conn.Any s) (hc : s.crashed = false)
    {d : Decoder} {c : Nat} (hm : s.mpc = .send d c) :
    ∃ s', Conn.step P .message s = some s' ∧ s'.mpc = .top ∧ (s'.calls c).chan = some d := by
  have hn := (h.tokens.taken c (by rw [hm]; rfl)).2.1
  refine ⟨_, by rw [step_message hc]; simp only [messageStep, hm, hn]; rfl, rfl, ?_⟩
  simp [State.set]

/-- A frame whose id is not in the map is dropped: the loop goes on to the next frame, and calls and
map are as before. -/
theorem C33_unknown {P : Params} {s : Conn.State} (hc : s.crashed = false) {id : Int32} {d : Decoder}
    (hm : s.mpc = .lookup id d) (hn : s.requests id = none) :
    ∃ s', Conn.run P [.message, .message, .message] s = some s' ∧ s'.mpc = .top ∧ s'.calls = s.calls ∧
      s'.requests = s.requests ∧ s'.readLock = none ∧ s'.crashed = false := by
  have hu : upd s.requests id none = s.requests := by
    funext j
    unfold upd
    split
    · rename_i hj; rw [hj, hn]
    · rfl
  simp [Conn.run, Conn.step, messageStep, hc, hm, hn, hu]

/-- Non-trivial instances: `messageLoop` about to send to a call, and to look up an unknown id. -/
example : (∃ s d, Conn.Reach small Conn.Any s ∧ s.crashed = false ∧ s.mpc = .send d 0) ∧
    ∃ s d, Conn.Reach small Conn.Any s ∧ s.crashed = false ∧ s.mpc = .lookup 9 d ∧ s.requests 9 = none := by
  constructor
  · have h : ((Conn.run small (callDo 0 ++ deliver [0, 0, 0, 4, 0, 0, 0, 1] ++ fetch ++ List.replicate 5 .message)
        (Conn.init small)).bind fun s => match s.mpc with
          | .send d 0 => if s.crashed = false then some d.raw else none
          | _ => none).isSome = true := by decide +kernel
    obtain ⟨x, hx⟩ := Option.isSome_iff_exists.1 h
    obtain ⟨s, h1, h2⟩ := Option.bind_eq_some_iff.1 hx
    split at h2
    · rename_i d hd
      split at h2
      · rename_i hc; exact ⟨s, d, connReach_of_run h1, hc, hd⟩
      · cases h2
    · cases h2
  · have h : ((Conn.run small (callDo 0 ++ deliver [0, 0, 0, 4, 0, 0, 0, 9] ++ fetch ++ [.message])
        (Conn.init small)).bind fun s => match s.mpc with
          | .lookup id d => if s.crashed = false ∧ id = 9 ∧ s.requests 9 = none then some d.raw else none
          | _ => none).isSome = true := by decide +kernel
    obtain ⟨x, hx⟩ := Option.isSome_iff_exists.1 h
    obtain ⟨s, h1, h2⟩ := Option.bind_eq_some_iff.1 hx
    split at h2
    · rename_i id d hd
      split at h2
      · rename_i hc; exact ⟨s, d, connReach_of_run h1, hc.1, by rw [hd, hc.2.1], hc.2.2⟩
      · cases h2
    · cases h2

/-! ## C34: a request is registered before it can be answered -/

/-- The full claim: once a call has put any byte on the wire, it is in the map under its id, or
`messageLoop` has taken it out to answer it, or has answered it. -/
def C34_statement (P : Params) : Prop :=
  ∀ s, Conn.Reach P Conn.Any s → ∀ c, (s.calls c).sent ≠ [] →
    s.requests (s.calls c).id = some c ∨ s.mpc.taken = some c ∨ (s.calls c).decodes = 1

/-- It holds unless a call with the same id (a multiple of 2^32 calls earlier or later, see C32) has
replaced it.  Missing: calls after the first 2^32. -/
theorem C34_partial {P : Params} {s : Conn.State} (h : Conn.Reach P Conn.Any s) {c : Nat}
    (hs : (s.calls c).sent ≠ []) :
    s.requests (s.calls c).id = some c ∨ s.mpc.taken = some c ∨ (s.calls c).decodes = 1 ∨
      ∃ c', c' ≠ c ∧ (s.calls c').id = (s.calls c).id ∧ (s.calls c').seq % 2 ^ 32 = (s.calls c).seq % 2 ^ 32 := by
  have hreg : ∀ j, (s.calls j).pc.registered = true → (s.calls j).pc.numbered = true := fun j hj => by
    cases hp : (s.calls j).pc <;> rw [hp] at hj <;> first | (cases hj; done) | rfl
  have hr : (s.calls c).pc.registered = true := by
    cases hb : (s.calls c).pc.before with
    | true => exact absurd (h.wires.before c hb).2 hs
    | false => cases hp : (s.calls c).pc <;> rw [hp] at hb <;> first | (cases hb; done) | rfl
  rcases h.registered.where_ c hr with h1 | h1 | h1 | ⟨c', h1, h2, h3⟩
  · exact .inl h1
  · exact .inr (.inl h1)
  · exact .inr (.inr (.inl h1))
  · exact .inr (.inr (.inr ⟨c', h1, h3, (C32_ids_partial h (hreg c' h2) (hreg c hr) h3).1⟩))

/-- So a reply that arrives finds the call, among the first 2^32 calls of a connection. -/
theorem C34_found {P : Params} {s : Conn.State} (h : Conn.Reach P Conn.Any s) {c : Nat} {d : Decoder}
    (hs : (s.calls c).sent ≠ []) (hn : s.count ≤ 2 ^ 32) (hd : (s.calls c).decodes = 0)
    (hm : s.mpc = .lookup (s.calls c).id d) (hc : s.crashed = false) :
    ∃ s', Conn.step P .message s = some s' ∧ s'.mpc = .delete (s.calls c).id d (some c) := by
  have h1 : s.requests (s.calls c).id = some c := by
    have hreg : (s.calls c).pc.registered = true := by
      cases hb : (s.calls c).pc.before with
      | true => exact absurd (h.wires.before c hb).2 hs
      | false => cases hp : (s.calls c).pc <;> rw [hp] at hb <;> first | (cases hb; done) | rfl
    have hnum : ∀ j, (s.calls j).pc.registered = true → (s.calls j).pc.numbered = true := fun j hj => by
      cases hp : (s.calls j).pc <;> rw [hp] at hj <;> first | (cases hj; done) | rfl
    rcases h.registered.where_ c hreg with h1 | h1 | h1 | ⟨c', h1, h2, h3⟩
    · exact h1
    · rw [hm] at h1; cases h1
    · omega
    · exact absurd ((C32_ids_partial h (hnum c' h2) (hnum c hreg) h3).2 hn) h1
  exact ⟨_, by rw [step_message hc]; simp only [messageStep, hm, h1]; rfl, rfl⟩

/-- Invariant of the schedule of `C34_fails`: the first `n` calls wait for their replies. -/
structure Waiting (P : Params) (n : Nat) (s : Conn.State) : Prop where
  reach : Conn.Reach P Conn.Any s
  crashed : s.crashed = false
  count : s.count = n
  readLock : s.readLock = none
  writeLock : s.writeLock = none
  werr : s.werr = none
  raw : s.rawClosed = false
  top : s.mpc = .top
  first : (s.calls 0).id = 1 ∧ (s.calls 0).sent ≠ [] ∧ (s.calls 0).decodes = 0
  later : ∀ j, n ≤ j → (s.calls j).pc = .absent ∧ (s.calls j).sent = []

theorem Waiting.call {P : Params} {n : Nat} {s : Conn.State} (h : Waiting P n s) :
    ∃ s', Conn.run P (callDo n) s = some s' ∧ s'.requests = upd s.requests (s.id + 1) (some n) ∧
      s'.crashed = false ∧ s'.count = s.count + 1 ∧ s'.readLock = none ∧ s'.writeLock = none ∧
      s'.werr = none ∧ s'.rawClosed = false ∧ s'.mpc = .top ∧ ∀ j, j ≠ n → s'.calls j = s.calls j := by
  have hp := (h.later n (Nat.le_refl _)).1
  have hw : ∀ id, Wire.int32 id = [_, _, _, _] := fun id => wire_int32 id
  simp [callDo, sampleJob, Conn.run, Conn.step, callStep, h.crashed, hp, State.set, h.readLock, h.writeLock, h.werr,
    h.raw, h.top, List.replicate, hw]
  intro j hj
  simp [hj]

theorem Waiting.all (P : Params) (n : Nat) : ∃ s, Waiting P (n + 1) s := by
  induction n with
  | zero =>
    have h : (Conn.run P (callDo 0) (Conn.init P)).isSome = true := rfl
    obtain ⟨s, hs⟩ := Option.isSome_iff_exists.1 h
    have hr := connReach_of_run hs
    refine ⟨s, ?_⟩
    cases hs
    refine ⟨hr, rfl, rfl, rfl, rfl, rfl, rfl, rfl, ⟨rfl, ?_, rfl⟩, fun j hj => ?_⟩
    · intro hn; cases hn
    · have h0 : j ≠ 0 := by omega
      simp [State.set, Conn.init, h0]
  | succ n ih =>
    obtain ⟨s, h⟩ := ih
    obtain ⟨s', e1, _, e2, e3, e4, e5, e6, e7, e8, e9⟩ := h.call
    refine ⟨s', h.reach.run _ (fun _ _ _ => trivial) e1, e2, by rw [e3, h.count], e4, e5, e6, e7, e8, ?_, ?_⟩
    · rw [e9 0 (by omega)]; exact h.first
    · intro j hj
      rw [e9 j (by omega)]
      exact h.later j (by omega)

/-- The claim is false: the call after 2^32 unanswered calls replaces the first. -/
theorem C34_fails (P : Params) : ¬C34_statement P := by
  intro hst
  obtain ⟨s, h⟩ := Waiting.all P (2 ^ 32 - 1)
  have hn : (2 : Nat) ^ 32 - 1 + 1 = 2 ^ 32 := rfl
  rw [hn] at h
  obtain ⟨s', e1, er, _, _, _, _, _, _, e8, e9⟩ := h.call
  have e0 := e9 0 (by decide)
  have hid : s.id + 1 = 1 := by rw [h.reach.ids.id, h.count]; rfl
  rcases hst s' (h.reach.run _ (fun _ _ _ => trivial) e1) 0 (by rw [e0]; exact h.first.2.1) with h1 | h1 | h1
  · rw [e0, h.first.1, er, hid] at h1
    simp [upd] at h1
  · rw [e8] at h1; cases h1
  · rw [e0, h.first.2.2] at h1; cases h1

/-- Non-trivial instance: three of a call's four bytes are on the wire. -/
example : ∃ s, Conn.Reach small Conn.Any s ∧ (s.calls 0).sent = [0, 0, 0] ∧ s.requests 1 = some 0 := by
  have h : ((Conn.run small ((callDo 0).take 8) (Conn.init small)).map fun s => ((s.calls 0).sent, s.requests 1)) =
      some ([0, 0, 0], some 0) := by decide +kernel
  obtain ⟨s, h1, h2⟩ := Option.map_eq_some_iff.1 h
  simp only [Prod.mk.injEq] at h2
  exact ⟨s, connReach_of_run h1, h2⟩

/-! ## C35: request frames are never interleaved -/

/-- The wire carries, in the order in which the calls started writing under the write lock, the whole
frame of every call but the last, and a prefix of the frame of the last. -/
theorem C35_wire {P : Params} {s : Conn.State} (h : Conn.Reach P Conn.Any s) :
    s.started.Nodup ∧
    (s.wire = [] ∨ ∃ calls last part, s.started = calls ++ [last] ∧
      part <+: (s.calls last).job.frame (s.calls last).id ∧
      s.wire = (calls.flatMap fun c => (s.calls c).job.frame (s.calls c).id) ++ part) := by
  have hw := h.wires
  refine ⟨hw.nodup, ?_⟩
  cases hl : s.started.getLast? with
  | none =>
    left
    rw [hw.wire, List.getLast?_eq_none_iff.1 hl]
    rfl
  | some last =>
    right
    have hs := getLast?_split hl
    refine ⟨s.started.dropLast, last, (s.calls last).sent, hs, hw.sent last, ?_⟩
    rw [hw.wire]
    conv => lhs; rw [hs]
    rw [List.flatMap_append, List.flatMap_cons, List.flatMap_nil, List.append_nil]
    congr 1
    exact flatMap_congr' fun c hc => hw.whole c hc

/-- A call whose `Flush` succeeded has put its whole frame on the wire. -/
theorem C35_flushed {P : Params} {s : Conn.State} (h : Conn.Reach P Conn.Any s) {c : Nat}
    (hp : (s.calls c).pc = .recv ∨ ∃ d, (s.calls c).pc = .done (.reply d)) :
    c ∈ s.started ∧ (s.calls c).sent = (s.calls c).job.frame (s.calls c).id := by
  refine h.wires.flushed c ?_
  rcases hp with hp | ⟨d, hp⟩ <;> rw [hp] <;> rfl

/-- What a call of an API method passes to `Do`. -/
def brokerJob (b : Broker) (a : Api) (req : a.req.T) : Job :=
  { frame := written b a req
    panics := fun d => match (b.call a req).decode d with
      | .panic => true
      | _ => false }

/-- With API calls of brokers on the connection and no write error: whenever no call is writing, the
bytes on the wire are exactly one frame for each call that has started writing, each with that call's
id, in order, and parse as these requests. -/
theorem C35_requests {P : Params} {s : Conn.State} (h : Conn.Reach P Conn.Any s) (b : Broker)
    (hcl : b.config.clientID.length < 2 ^ 15) (reqs : Nat → Σ a : Api, a.req.T)
    (hj : ∀ c ∈ s.started, (s.calls c).job = brokerJob b (reqs c).1 (reqs c).2)
    (hsz : ∀ c ∈ s.started, (written b (reqs c).1 (reqs c).2 (s.calls c).id).length < 2 ^ 31)
    (he : s.werr = none) (hw : s.writeLock = none) :
    ∃ payloads, Wire.splitFrames s.wire = some payloads ∧
      payloads.map Wire.parseRequest = s.started.map fun c =>
        some (Sent.parsed b ⟨(reqs c).1, (reqs c).2, (s.calls c).id⟩) := by
  have hwi := h.wires
  have hall : ∀ c ∈ s.started, (s.calls c).sent = written b (reqs c).1 (reqs c).2 (s.calls c).id := fun c hc => by
    rcases hwi.clean he c hc with h1 | h1
    · rw [h1, CState.frame, hj c hc]; rfl
    · have : (s.calls c).pc.holdsW = true := by
        cases hp : (s.calls c).pc <;> rw [hp] at h1 <;> first | (cases h1; done) | rfl
      rw [(h.locks.callW c).1 this] at hw
      cases hw
  have hs := C20_stream b hcl (s.started.map fun c => ⟨(reqs c).1, (reqs c).2, (s.calls c).id⟩) (by
    intro x hx
    obtain ⟨c, hc, rfl⟩ := List.mem_map.1 hx
    exact hsz c hc)
  obtain ⟨ps, h1, h2⟩ := hs
  refine ⟨ps, ?_, ?_⟩
  · rw [hwi.wire, flatMap_congr' hall, ← h1, List.flatMap_map]
  · rw [h2, List.map_map]
    rfl

/-- Non-trivial instance: the second call is between its two writes. -/
example : ∃ s, Conn.Reach small Conn.Any s ∧ s.started = [0, 1] ∧ s.wire = [0, 0, 0, 1, 0, 0, 0] := by
  have h : ((Conn.run small (callDo 0 ++ (callDo 1).take 8) (Conn.init small)).map fun s => (s.started, s.wire)) =
      some ([0, 1], [0, 0, 0, 1, 0, 0, 0]) := by decide +kernel
  obtain ⟨s, h1, h2⟩ := Option.map_eq_some_iff.1 h
  simp only [Prod.mk.injEq] at h2
  exact ⟨s, connReach_of_run h1, h2⟩

/-! ## C36: a lost connection -/

/-- The full claim, as far as any scheduling can make it true: when `readLoop` has ended (because the
connection broke or was closed), every call made can go on to return. -/
def C36_statement (P : Params) : Prop :=
  ∀ s, Conn.Reach P Conn.Any s → s.lpc = .exited → ∀ c, (s.calls c).pc ≠ .absent →
    ∃ s', Leads P s s' ∧ (s'.crashed = true ∨ ∃ o, (s'.calls c).pc = .done o)

/-- A call, waiting for its reply when `Close` is called. -/
def closeWhileWaiting : List Act :=
  callDo 0 ++ [.close 0, .close 0, .close 0, .close 0, .readErr [], .message, .close 0, .close 0]

/-- The claim is false: after `Close` has returned, the call waits for ever. -/
theorem C36_close_fails (P : Params) : ∃ s, Conn.Reach P Conn.Any s ∧ s.closers 0 = .done ∧ s.crashed = false ∧
    (s.calls 0).pc = .recv ∧ ∀ as s', Conn.run P as s = some s' → (s'.calls 0).pc = .recv := by
  have h : (Conn.run P closeWhileWaiting (Conn.init P)).isSome = true := rfl
  obtain ⟨s, hs⟩ := Option.isSome_iff_exists.1 h
  have hr := connReach_of_run hs
  have e : s.closers 0 = .done ∧ s.crashed = false ∧ Stuck 0 s := by
    cases hs; exact ⟨rfl, rfl, rfl, rfl, rfl⟩
  refine ⟨s, hr, e.1, e.2.1, e.2.2.2.1, fun as s' hrun => ?_⟩
  exact (run_inv (I := Stuck 0) (ok := fun _ => True) (fun _ _ _ h _ ht => h.trans ht) as (fun _ _ => trivial)
    e.2.2 hrun).2.1

theorem ring_idles {N : Nat} {a : Ring.Action} {r r' : Ring.State} (ha : a.isCallR = false) (hi : r.rpc = .idle)
    (h : Ring.step N a r = some r') : r'.rpc = .idle := by
  rcases (ring_read h (by rintro _ _ rfl; cases ha)).2 with h1 | h1
  · exact absurd hi h1.1
  · exact h1.1.2 hi

theorem C36_fails (P : Params) : ¬C36_statement P := by
  intro h
  have h0 : (Conn.run P closeWhileWaiting (Conn.init P)).isSome = true := rfl
  obtain ⟨s, hs⟩ := Option.isSome_iff_exists.1 h0
  have hr := connReach_of_run hs
  have e : s.lpc = .exited ∧ Stuck 0 s ∧ s.crashed = false ∧ s.ring.rpc = .idle := by
    cases hs; exact ⟨rfl, ⟨rfl, rfl, rfl⟩, rfl, rfl⟩
  obtain ⟨s', ⟨as, hrun⟩, h2⟩ := h s hr e.1 0 (by rw [e.2.1.2.1]; simp)
  have h3 := run_inv (I := fun s => Stuck 0 s ∧ s.crashed = false ∧ s.ring.rpc = .idle) (ok := fun _ => True)
    (fun _ _ _ h _ ht => ⟨h.1.trans ht, by
      have hm := h.1.1
      have hc := h.2.1
      have hi := h.2.2
      cases ht
      case ring a r ha hst => exact ⟨hc, ring_idles (by cases a <;> first | rfl | cases ha) hi hst⟩
      case read data r _ _ _ hst => exact ⟨hc, ring_idles (a := .callW _ _) rfl hi hst⟩
      case rbClose k r _ hst => exact ⟨hc, ring_idles (a := .close) rfl hi hst⟩
      all_goals simp_all [State.set, full]⟩) as (fun _ _ => trivial) e.2 hrun
  rcases h2 with h2 | ⟨o, h2⟩
  · rw [h3.2.1] at h2; cases h2
  · rw [h3.1.2.1] at h2; cases h2

/-- A call, waiting for its reply when the peer closes the connection; `messageLoop` waits for data. -/
def peerCloses : List Act :=
  callDo 0 ++ [.message, .ring .r, .ring .r, .ring .r, .ring .r, .ring .r, .readErr []]

/-- Neither does the call return when the peer closes the connection: as long as nobody calls `Close`,
it waits for ever, and so does every later call that succeeds in writing its request. -/
theorem C36_peer_fails {P : Params} (hP : 4 ≤ P.buf) : ∃ s, Conn.Reach P Conn.Any s ∧ s.crashed = false ∧
    s.lpc = .exited ∧ (s.calls 0).pc = .recv ∧
    ∀ as s', (∀ a ∈ as, a.isClose = false) → Conn.run P as s = some s' →
      (s'.calls 0).pc = .recv ∧ ∀ c d, (s'.calls c).pc ≠ .done (.reply d) := by
  have hst : Ring.step P.ring (.callR (List.replicate P.buf 0) (min 4 (List.replicate P.buf (0 : Byte)).length)) Ring.init =
      some { Ring.init with rpc := .load1, rdst := List.replicate P.buf 0, rn := 4, rorig := List.replicate P.buf 0 } := by
    simp [Ring.step, Ring.init, Nat.min_eq_left hP]
    omega
  have h : ∃ s, Conn.run P peerCloses (Conn.init P) = some s ∧ s.crashed = false ∧ (s.calls 0).pc = .recv ∧ Silent s := by
    have e1 : Conn.run P (callDo 0) (Conn.init P) = some _ := rfl
    rw [peerCloses, run_append, e1]
    simp only [Option.bind_some, Conn.run, Conn.step, messageStep, readN, State.set, Conn.init,
      show (4 : Int).toNat = 4 from rfl]
    simp only [hst]
    simp only [Option.map_some, inRing, Ring.step, Ring.rStep, Ring.rLoop, Ring.init]
    refine ⟨_, rfl, rfl, rfl, rfl, rfl, rfl, rfl, rfl, fun c => ?_⟩
    simp only
    by_cases h0 : c = 0 <;> simp [h0, CPc.replied]
  obtain ⟨s, h1, h2, h3, h4⟩ := h
  refine ⟨s, connReach_of_run h1, h2, h4.1, h3, fun as s' ha hrun => ?_⟩
  have h5 := run_inv (I := fun s => Silent s ∧ (s.calls 0).pc = .recv) (ok := fun a => a.isClose = false)
    (fun s s' a h ha ht => ⟨h.1.trans ha ht, by
      have h0 := h.1.2.2.2.2.2 0
      have hp := h.2
      have hm := h.1.2.2.2.2.1
      cases ht <;> simp only [State.set] <;> grind⟩) as ha ⟨h4, h3⟩ hrun
  refine ⟨h5.2, fun c d hd => ?_⟩
  have := (h5.1.2.2.2.2.2 c).2
  rw [hd] at this
  cases this

/-- What does hold: when `raw` has been closed, a call that has not started writing never waits for a
reply; it can go on to return an error, and only an error.  Missing: calls that have written their
request, and connections that broke without being closed. -/
theorem C36_partial {P : Params} {s : Conn.State} (h : Conn.Reach P Conn.Any s) (hc : s.crashed = false)
    (hr : s.rawClosed = true) {c : Nat} (ha : (s.calls c).pc ≠ .absent)
    (hn : ∀ id, (s.calls c).job.frame id ≠ []) (hp : (s.calls c).pc.before = true) :
    (∃ s' e, Leads P s s' ∧ (s'.calls c).pc = .done (.flushErr e)) ∧
    ∀ as s', Conn.run P as s = some s' →
      (s'.calls c).pc ≠ .recv ∧ ∀ d, (s'.calls c).pc ≠ .done (.reply d) := by
  have hd : Doomed c s := ⟨hr, ha, hn, .inl hp⟩
  refine ⟨doomed_returns h hd hc, fun as s' hrun => ?_⟩
  have h1 := (run_inv (I := Doomed c) (ok := fun _ => True) (fun _ _ _ h _ ht => h.trans ht) as (fun _ _ => trivial)
    hd hrun).2.2.2
  constructor
  · intro h2
    rw [h2] at h1
    simp [CPc.before] at h1
  · intro d h2
    rw [h2] at h1
    simp [CPc.before] at h1

/-- A failed `Flush` is returned to the caller. -/
theorem C36_flush_partial {P : Params} {s : Conn.State} (hc : s.crashed = false) {c : Nat} {e : WErr}
    (hp : (s.calls c).pc = .wunlock (some e)) :
    ∃ s', Conn.step P (.call c) s = some s' ∧ (s'.calls c).pc = .done (.flushErr e) := by
  refine ⟨_, by rw [step_call hc]; simp only [callStep, hp]; rfl, ?_⟩
  simp [State.set]

/-- Non-trivial instance of `C36_partial`: a call is made while the connection is being closed. -/
example : ∃ s, Conn.Reach small Conn.Any s ∧ s.crashed = false ∧ s.rawClosed = true ∧ (s.calls 0).pc = .add ∧
    ∀ id, (s.calls 0).job.frame id ≠ [] := by
  have h : (Conn.run small [.close 0, .close 0, .close 0, .close 0, .start 0 sampleJob] (Conn.init small)).isSome = true :=
    rfl
  obtain ⟨s, hs⟩ := Option.isSome_iff_exists.1 h
  refine ⟨s, connReach_of_run hs, ?_⟩
  cases hs
  exact ⟨rfl, rfl, rfl, fun id => by simp [State.set, sampleJob, wire_int32, be32]⟩

/-! ## C37: bad frames -/

/-- The full claim: the frames `messageLoop` has read are the first frames of the stream of bytes
received, whatever they contain. -/
def C37_statement (P : Params) (ok : Conn.State → Act → Prop) : Prop :=
  ∀ s, Conn.Reach P ok s → s.frames <+: splitStream s.received

/-- The ring buffer is used as in C25. -/
def PacedConn (P : Params) (s : Conn.State) : Act → Prop
  | .ring a => Ring.Paced P.ring s.ring a
  | _ => True

/-- It holds in all schedules in which the goroutines woken in the ring buffer do not run ahead (see
C25): a frame that is short, undecodable, unknown or repeated does not change where the next one starts.
Missing for the full claim: schedules in which they do. -/
theorem C37_partial {P : Params} (hN : 2 ≤ P.ring) (hP : 4 ≤ P.buf) : C37_statement P (PacedConn P) := by
  intro s h
  have hst := h.stream hP
  have hring : Ring.Reach P.ring (Ring.Paced P.ring) s.ring := h.ring (fun _ _ h => h) (fun r a ha => by
    cases a <;> simp [inRing] at ha <;> trivial)
  have hpre : s.ring.taken <+: s.received := by
    rw [← hst.given]
    exact C25_partial hN s.ring hring
  have key : ∀ {bs : List Byte}, Parsed s.frames bs → bs <+: s.received → s.frames <+: splitStream s.received := by
    intro bs hp ⟨t, ht⟩
    rw [← ht, hp.split]
    exact List.prefix_append _ _
  cases hm : s.mpc with
  | inHead =>
    obtain ⟨bs, h1, _, h2⟩ := hst.head hm
    exact key h1 ((List.prefix_append _ _).trans (h2 ▸ hpre))
  | inBody size =>
    obtain ⟨bs, v, h1, _, _, h2⟩ := hst.body size hm
    refine key h1 (List.IsPrefix.trans ?_ (h2 ▸ hpre))
    rw [List.append_assoc]
    exact List.prefix_append _ _
  | _ => exact key (hst.out (by simp [hm])).2 hpre

/-- In every schedule, a frame too short for a header is skipped: no call is affected. -/
theorem C37_short {P : Params} {s : Conn.State} (h : Conn.Reach P Conn.Any s) (hc : s.crashed = false) {size : Int}
    (hm : s.mpc = .inBody size) (hi : s.ring.rpc = .idle) (hs : size < 4) (hP : 4 ≤ P.buf) :
    ∃ s', Conn.step P .message s = some s' ∧ s'.mpc = .top ∧ s'.calls = s.calls ∧ s'.requests = s.requests ∧
      s'.crashed = false := by
  have hz := h.frames.size size hm
  have hb' := h.frames.buf
  have hb := h.frames.length hm (by omega)
  have hsz : ¬(size > s.buf.length) := by omega
  rcases header_start hz.1 hz.2 (raw := s.ring.rdst) (by omega) with ⟨_, h2⟩ | ⟨h1, _⟩
  · rw [step_message hc]
    simp only [messageStep, hm, hi, if_neg hsz, h2]
    exact ⟨_, rfl, rfl, rfl, rfl, hc⟩
  · omega

instance (N : Nat) (s : Ring.State) (a : Ring.Action) : Decidable (Ring.Paced N s a) := by
  unfold Ring.Paced Ring.Room Ring.Data
  split <;> infer_instance

instance (P : Params) (s : Conn.State) (a : Act) : Decidable (PacedConn P s a) := by
  unfold PacedConn
  split <;> infer_instance

/-- Non-trivial instance: an unknown reply is dropped and the next one dispatched. -/
example : ∃ s, Conn.Reach small (PacedConn small) s ∧ s.frames = [[0, 0, 0, 9], [0, 0, 0, 1]] ∧
    (s.calls 0).chan ≠ none := by
  let sch : List Act := callDo 0 ++ deliver [0, 0, 0, 4, 0, 0, 0, 9] ++ fetch ++ List.replicate 4 .message ++
    deliver [0, 0, 0, 4, 0, 0, 0, 1] ++ fetch ++ List.replicate 6 .message
  have h : ((Conn.run small sch (Conn.init small)).map fun s => (s.frames, (s.calls 0).chan.isSome)) =
      some ([[0, 0, 0, 9], [0, 0, 0, 1]], true) := by decide +kernel
  have ht : ∀ x ∈ connTrace small sch (Conn.init small), PacedConn small x.1 x.2 := by decide +kernel
  obtain ⟨s, h1, h2⟩ := Option.map_eq_some_iff.1 h
  simp only [Prod.mk.injEq] at h2
  exact ⟨s, connReach_trace sch .init ht h1, h2.1, by rw [← Option.isSome_iff_ne_none]; exact h2.2⟩

/-- The peer sends the first two bytes of a frame of eight bytes. -/
def splitHeader : List Act :=
  [.message, .ring .r, .ring .r, .ring .r, .ring .r, .ring .r,
   .read [0, 0], .ring .w, .ring .w, .ring .w, .ring .w, .ring .w, .ring .w, .ring .handR,
   .ring .r, .ring .r, .ring .r, .ring .r, .ring .r, .ring .r,
   .message, .ring .r, .ring .r, .ring .r, .message]

/-- The claim is false at every size: when the four bytes of a length arrive in two parts, `messageLoop` takes the
first two and two bytes that were never sent for a length, and reads a frame from a stream that
contains none. -/
theorem C37_fails {P : Params} (hN : 5 ≤ P.ring) (hP : 4 ≤ P.buf) : ¬C37_statement P Conn.Any := by
  obtain ⟨N, B⟩ := P
  obtain ⟨B, rfl⟩ := Nat.exists_eq_add_of_le' hP
  have hN : 5 ≤ N := hN
  intro h
  have e1 : ¬1 = N := by omega
  have e2 : ¬2 = N := by omega
  have e3 : ¬3 = N := by omega
  have e4 : ¬4 = N := by omega
  have e : ∃ s, Conn.run ⟨N, B + 4⟩ splitHeader (Conn.init ⟨N, B + 4⟩) = some s ∧ s.frames = [[]] ∧ s.received = [0, 0] := by
    unfold splitHeader Conn.init Ring.init
    iterate 25 refine run_next (by
      simp [Conn.step, messageStep, readN, inRing, Ring.step, Ring.rStep, Ring.wStep, Ring.rLoop, Ring.wLoop, Ring.rWaited,
        Ring.wReturn, Ring.rReturn, Ring.incr, e1, e2, e3, e4, List.replicate_succ]; rfl) ?_
    exact ⟨_, rfl, rfl, rfl⟩
  obtain ⟨s, h1, h2, h3⟩ := e
  have h4 := h s (connReach_of_run h1)
  have h5 : splitStream [0, 0] = [] := by rw [splitStream]; simp
  rw [h2, h3, h5] at h4
  have := h4.length_le
  simp at this

/-! ## C38: frame sizes -/

/-- The full claim: no panic, as long as the decode functions do not panic. -/
def C38_statement (P : Params) : Prop :=
  ∀ s, Conn.Reach P Conn.Any s → (∀ c d, (s.calls c).pc ≠ .absent → (s.calls c).job.panics d = false) → s.crashed = false

/-- The claim is false for the code's sizes, and any others that leave room for the buffer in the ring:
a peer that announces any length greater than the buffer and sends one byte more than the buffer holds,
whatever the bytes, ends the program. -/
theorem C38_oversize_fails {P : Params} (hP : 4 ≤ P.buf) (hN : P.buf + 7 ≤ P.ring) (size : Int32)
    (hs : (P.buf : Int) < size.toInt) (data : List Byte) (hd : data.length = P.buf + 1) :
    ∃ s, Conn.Reach P Conn.Any s ∧ s.crashed = true ∧ s.received = Wire.int32 size ++ data ∧
      ∀ c, (s.calls c).pc = .absent := by
  have h0 : Conn.Calm P (Conn.init P) := ⟨rfl, rfl, rfl, rfl, rfl, rfl, rfl, rfl, Ring.Quiet.init (by omega), rfl⟩
  obtain ⟨s, h1, h2, h3, -, h5⟩ := h0.crash hP hN .init hs hd
  exact ⟨s, h1.reach .init, h2, h5, fun c => by rw [h3]; rfl⟩

theorem C38_fails : ¬C38_statement actual := by
  intro h
  obtain ⟨s, h1, h2, _, h4⟩ := C38_oversize_fails (P := actual) (by decide) (by decide) 2000001 (by decide)
    (List.replicate (actual.buf + 1) 0) List.length_replicate
  have := h s h1 (fun c d hn => absurd (h4 c) hn)
  rw [h2] at this
  cases this

/-- What does hold: the program ends in a panic only when the length announced is greater than the
buffer, or when the decode function of the call being answered panics on the reply (C10). -/
theorem C38_partial {P : Params} (hP : 4 ≤ P.buf) {s : Conn.State} (h : Conn.Reach P Conn.Any s)
    (hc : s.crashed = true) :
    (∃ size, s.mpc = .inBody size ∧ (P.buf : Int) < size) ∨
    ∃ d c, s.mpc = .decode d c ∧ (s.calls c).job.panics d = true := by
  cases h with
  | init => cases hc
  | @step s0 _ a hr hok hst =>
    have hc0 : s0.crashed = false := by
      cases hc0 : s0.crashed with
      | false => rfl
      | true => simp [Conn.step, hc0] at hst
    have ht := step_trans hst
    clear hst hok
    cases ht
    case headCrash hm hi hn =>
      have hb := hr.frames.head hm
      obtain ⟨v, _, e⟩ := headSize_eq (buf := s0.ring.rdst) (by omega)
      rw [hn] at e; cases e
    case bodyCrash size hm hi hlt =>
      have hb := hr.frames.buf
      exact .inl ⟨size, hm, by omega⟩
    case full hf => exact .inl (hr.full hP hf)
    case parseCrash size hm hi hle hd =>
      have hz := hr.frames.size size hm
      have hb := hr.frames.buf
      have hb' := hr.frames.length hm hle
      rcases header_start hz.1 hz.2 (raw := s0.ring.rdst) (by omega) with ⟨_, h2⟩ | ⟨h1, resp', h2, h3⟩
      · rw [hd] at h2; cases h2
      · rw [hd] at h3; cases h3
    case decodeCrash d c hm hp => exact .inr ⟨d, c, hm, hp⟩
    all_goals (simp [State.set, hc0] at hc)

end Kafka.Props
