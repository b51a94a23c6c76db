import Verif.Client.Prog
import Verif.Props.Client
/-!
C82: a client used by several goroutines.
-/
namespace Kafka.Props

open Kafka.Client Kafka.Msg

/-- An operation as a program, of a client with `n` bootstrap addresses. -/
def ClientOp.prog {α : Type} (n : Nat) : ClientOp α → Prog α
  | .metadata topics => Prog.metadata n topics
  | .leader topic partition => Prog.dialLeader n topic partition
  | .controller => Prog.dialController n
  | .coordinator group => Prog.dialGroupCoordinator n group

/-- Alone, the program does what the operation does. -/
theorem prog_run {α : Type} (c : Client) (op : ClientOp α) (env : Env) (tr : Trace) :
    (op.prog c.bootstrap.length).run c env tr = op.run c env tr := by
  cases op with
  | metadata topics => exact Prog.run_metadata c topics env tr
  | leader topic partition => exact Prog.run_dialLeader c topic partition env tr
  | controller => exact Prog.run_dialController c env tr
  | coordinator group => exact Prog.run_dialGroupCoordinator c group env tr

/-! ### Several at once -/

/-- One step of a program that has done `tr`, with the elements `c` has at that moment.  A dial and a request may end in any way. -/
inductive PStep {α : Type} (c : Client) (tr : Trace) : Prog α → Option Event → Prog α → Prop
  | addr (i : Nat) (k : GoString → Prog α) : PStep c tr (.addr i k) none (k (c.bootstrap.getD i []))
  | opts (k : List Opt → Prog α) : PStep c tr (.opts k) none (k c.opts)
  | up (a : GoString) (mode : DialMode) (k : Except NetErr Nat → Prog α) :
    PStep c tr (.dial a mode k) (some (.dial a mode none)) (k (.ok tr.dialed))
  | down (a : GoString) (mode : DialMode) (k : Except NetErr Nat → Prog α) (e : NetErr) :
    PStep c tr (.dial a mode k) (some (.dial a mode (some e))) (k (.error e))
  | send (conn : Nat) (bytes : Int32 → List Byte) (k : Int32 → Reply → Prog α) (reply : Reply) :
    PStep c tr (.send conn bytes k) (some (.request conn (bytes (Int32.ofNat (tr.sent conn + 1))) reply))
      (k (Int32.ofNat (tr.sent conn + 1)) reply)

/-- Operations under way, one for each `i`: where each is, what all have done, in the order in which they did it, and
the elements of the two slices. -/
structure GState {ι : Type} (τ : ι → Type) where
  progs : (i : ι) → Prog (τ i)
  trace : List (ι × Event)
  client : Client

/-- What operation `i` has done. The connections of an operation are numbered by themselves: none has those of another. -/
def proj {ι : Type} [DecidableEq ι] (i : ι) (tr : List (ι × Event)) : Trace :=
  (tr.filter fun e => e.1 = i).map (·.2)

/-- A step of one of the operations, or of the caller, who stores elements in the slices.  A panic ends the program. -/
inductive GStep {ι : Type} [DecidableEq ι] {τ : ι → Type} : GState τ → GState τ → Prop
  | run {s : GState τ} (i : ι) {ev : Option Event} {p : Prog (τ i)} :
    (∀ j, s.progs j ≠ .ret .panic) → PStep s.client (proj i s.trace) (s.progs i) ev p →
    GStep s { s with progs := fun j => if h : i = j then h ▸ p else s.progs j, trace := s.trace ++ ev.toList.map fun e => (i, e) }
  | store {s : GState τ} (c : Client) : c.bootstrap.length = s.client.bootstrap.length → c.opts.length = s.client.opts.length →
    GStep s { s with client := c }

inductive GReach {ι : Type} [DecidableEq ι] {τ : ι → Type} (start : GState τ) : GState τ → Prop
  | start : GReach start start
  | step {s s' : GState τ} : GReach start s → GStep s s' → GReach start s'

/-- A client is made, and operations are called. -/
def gstart {ι : Type} {τ : ι → Type} (bootstrap : List GoString) (opts : List Opt) (ops : (i : ι) → ClientOp (τ i)) : GState τ where
  progs := fun i => (ops i).prog bootstrap.length
  trace := []
  client := newClient bootstrap opts

/-- Executions in which the caller leaves the slices as they are. -/
inductive GReachFixed {ι : Type} [DecidableEq ι] {τ : ι → Type} (start : GState τ) : GState τ → Prop
  | start : GReachFixed start start
  | step {s s' : GState τ} : GReachFixed start s → GStep s s' → s'.client = s.client → GReachFixed start s'

/-- The full claim: whatever the other operations, and the caller, do at the same time, an operation does what it does alone with a client
that has the addresses and options passed to `NewClient`: with some network, it does the same and has the same outcome. -/
def C82_statement : Prop :=
  ∀ (ι : Type) [DecidableEq ι] (τ : ι → Type) (ops : (i : ι) → ClientOp (τ i)) (bootstrap : List GoString) (opts : List Opt)
    (s : GState τ), GReach (gstart bootstrap opts ops) s →
    ∀ (i : ι) (o : Out (τ i)), s.progs i = .ret o →
      ∃ env, (ops i).run (newClient bootstrap opts) env [] = (o, proj i s.trace)

/-! ### Networks that do what has been seen -/

/-- The network behaves as in `t`. -/
def Replays (env : Env) (t : Trace) : Prop :=
  ∀ t1 ev t2, t = t1 ++ ev :: t2 →
    match ev with
    | .dial a _ r => env.dial t1 a = r
    | .request conn bytes reply => env.reply t1 conn bytes = reply
    | .close _ => True

theorem Replays.left {env : Env} {t t' : Trace} (h : Replays env (t ++ t')) : Replays env t := by
  intro t1 ev t2 he
  exact h t1 ev (t2 ++ t') (by rw [he]; simp)

/-- There is one for each trace. -/
def replay (t : Trace) : Env where
  dial t1 _ := match t[t1.length]? with
    | some (.dial _ _ r) => r
    | _ => none
  reply t1 _ _ := match t[t1.length]? with
    | some (.request _ _ r) => r
    | _ => .never

theorem replay_replays (t : Trace) : Replays (replay t) t := by
  intro t1 ev t2 h
  have he : t[t1.length]? = some ev := by rw [h]; simp
  cases ev with
  | dial a mode r => simp only [replay, he]
  | request conn bytes reply => simp only [replay, he]
  | close conn => trivial

/-- A step is one of the program alone. -/
theorem PStep.run_eq {α : Type} {c : Client} {tr : Trace} {p p' : Prog α} {ev : Option Event} (h : PStep c tr p ev p') {env : Env}
    (hr : Replays env (tr ++ ev.toList)) : p.run c env tr = p'.run c env (tr ++ ev.toList) := by
  cases h with
  | addr i k => simp [Prog.run]
  | opts k => simp [Prog.run]
  | up a mode k =>
    have := hr tr _ [] rfl
    simp only at this
    simp [Prog.run, this]
  | down a mode k e =>
    have := hr tr _ [] rfl
    simp only at this
    simp [Prog.run, this]
  | send conn bytes k reply =>
    have := hr tr _ [] rfl
    simp only at this
    simp only [Prog.run, this]
    rfl

theorem proj_append {ι : Type} [DecidableEq ι] (i : ι) (t t' : List (ι × Event)) : proj i (t ++ t') = proj i t ++ proj i t' := by
  simp [proj]

theorem proj_same {ι : Type} [DecidableEq ι] (i : ι) (ev : Option Event) : proj i (ev.toList.map fun e => (i, e)) = ev.toList := by
  cases ev <;> simp [proj]

theorem proj_other {ι : Type} [DecidableEq ι] {i j : ι} (h : i ≠ j) (ev : Option Event) : proj j (ev.toList.map fun e => (i, e)) = [] := by
  cases ev <;> simp [proj, h]

/-- What is true all the time: where an operation is, is where it gets alone with a network that does what has been seen. -/
theorem fixed_inv {ι : Type} [DecidableEq ι] {τ : ι → Type} {ops : (i : ι) → ClientOp (τ i)} {bootstrap : List GoString}
    {opts : List Opt} {s : GState τ} (h : GReachFixed (gstart bootstrap opts ops) s) :
    s.client = newClient bootstrap opts ∧ ∀ i env, Replays env (proj i s.trace) →
      (ops i).run (newClient bootstrap opts) env [] = (s.progs i).run (newClient bootstrap opts) env (proj i s.trace) := by
  induction h with
  | start => exact ⟨rfl, fun i env _ => (prog_run (newClient bootstrap opts) (ops i) env []).symm⟩
  | @step s s' hr hs hc ih =>
    obtain ⟨h1, h2⟩ := ih
    refine ⟨hc.trans h1, ?_⟩
    clear hr
    cases hs with
    | store c _ _ => exact h2
    | @run i ev p hp hs =>
      intro j env hj
      simp only [proj_append] at hj ⊢
      rw [h2 j env hj.left]
      by_cases h : i = j
      · subst h
        rw [proj_same] at hj ⊢
        simp only [dite_true]
        rw [h1] at hs
        exact hs.run_eq hj
      · rw [proj_other h]
        simp [h]

theorem Prog.run_extends {α : Type} (c : Client) (env : Env) : ∀ (p : Prog α) (tr : Trace), ∃ t, (p.run c env tr).2 = tr ++ t
  | .ret o, tr => ⟨[], by simp [Prog.run]⟩
  | .addr i k, tr => Prog.run_extends c env (k _) tr
  | .opts k, tr => Prog.run_extends c env (k _) tr
  | .dial a mode k, tr => by
    simp only [Prog.run]
    split
    · obtain ⟨t, h⟩ := Prog.run_extends c env (k (.error _)) (tr ++ [.dial a mode (some _)])
      exact ⟨_, by rw [h, List.append_assoc]⟩
    · obtain ⟨t, h⟩ := Prog.run_extends c env (k (.ok tr.dialed)) (tr ++ [.dial a mode none])
      exact ⟨_, by rw [h, List.append_assoc]⟩
  | .send conn bytes k, tr => by
    simp only [Prog.run]
    obtain ⟨t, h⟩ := Prog.run_extends c env (k (Int32.ofNat (tr.sent conn + 1))
      (env.reply tr conn (bytes (Int32.ofNat (tr.sent conn + 1))))) (tr ++ [.request conn (bytes (Int32.ofNat (tr.sent conn + 1)))
      (env.reply tr conn (bytes (Int32.ofNat (tr.sent conn + 1))))])
    exact ⟨_, by rw [h, List.append_assoc]⟩

/-! ### The property -/

/-- C82, as long as the caller leaves the slices alone.  Missing: callers that use them again (`C82_fails`). -/
theorem C82_partial {ι : Type} [DecidableEq ι] {τ : ι → Type} {ops : (i : ι) → ClientOp (τ i)} {bootstrap : List GoString}
    {opts : List Opt} {s : GState τ} (h : GReachFixed (gstart bootstrap opts ops) s) {i : ι} {o : Out (τ i)}
    (ho : s.progs i = .ret o) : ∃ env, (ops i).run (newClient bootstrap opts) env [] = (o, proj i s.trace) := by
  refine ⟨replay (proj i s.trace), ?_⟩
  rw [(fixed_inv h).2 i _ (replay_replays _), ho]
  rfl

/-- The same of operations that have not ended: what they have done so far is the beginning of what they do alone. -/
theorem C82_begun_partial {ι : Type} [DecidableEq ι] {τ : ι → Type} {ops : (i : ι) → ClientOp (τ i)} {bootstrap : List GoString}
    {opts : List Opt} {s : GState τ} (h : GReachFixed (gstart bootstrap opts ops) s) (i : ι) :
    ∃ env, proj i s.trace <+: ((ops i).run (newClient bootstrap opts) env []).2 := by
  refine ⟨replay (proj i s.trace), ?_⟩
  rw [(fixed_inv h).2 i _ (replay_replays _)]
  obtain ⟨t, ht⟩ := Prog.run_extends (newClient bootstrap opts) (replay (proj i s.trace)) (s.progs i) (proj i s.trace)
  exact ⟨t, ht.symm⟩

/-! ### The caller uses a slice again -/

/-- How an execution goes on with a step of operation `i`. -/
theorem GReachFixed.go {ι : Type} [DecidableEq ι] {τ : ι → Type} {start s : GState τ} (h : GReachFixed start s) (i : ι)
    {ev : Option Event} {p q : Prog (τ i)} {c : Client} {t : List (ι × Event)} (hn : ∀ j, s.progs j ≠ .ret .panic)
    (hp : s.progs i = p) (hc : s.client = c) (ht : s.trace = t) (hs : PStep c (proj i t) p ev q) :
    ∃ s', GReachFixed start s' ∧ s'.progs i = q ∧ s'.client = c ∧ s'.trace = t ++ ev.toList.map (fun e => (i, e)) ∧
      ∀ j, j ≠ i → s'.progs j = s.progs j := by
  subst hp; subst hc; subst ht
  refine ⟨_, .step h (.run i hn hs) rfl, ?_, rfl, rfl, ?_⟩
  · simp
  · intro j hj
    have hij : i ≠ j := fun h => hj h.symm
    simp only [hij, dite_false]

theorem GReach.fixed {ι : Type} [DecidableEq ι] {τ : ι → Type} {start s s' : GState τ} (h : GReach start s) (h' : GReachFixed s s') :
    GReach start s' := by
  induction h' with
  | start => exact h
  | step _ hs _ ih => exact .step ih hs

def oldAddr : GoString := [97#8]
def newAddr : GoString := [98#8]

/-- The caller stores another address in the slice before the operation has read it: it dials an address that was not passed to `NewClient`. -/
theorem redirected (e : NetErr) : ∃ s : GState (fun _ : Unit => MetadataResponse),
    GReach (gstart [oldAddr] [] fun _ => ClientOp.metadata []) s ∧
    s.progs () = .ret (.err (.wrap (.dial newAddr) (.net e))) ∧
    ∃ mode, proj () s.trace = [.dial newAddr mode (some e)] := by
  obtain ⟨s0, hs0⟩ : ∃ s : GState (fun _ : Unit => MetadataResponse), s = gstart [oldAddr] [] fun _ => ClientOp.metadata [] := ⟨_, rfl⟩
  rw [← hs0]
  have r0 : GReach s0 { s0 with client := newClient [newAddr] [] } := .step .start (.store _ (by rw [hs0]; rfl) (by rw [hs0]; rfl))
  have r1 : GReachFixed { s0 with client := newClient [newAddr] [] } { s0 with client := newClient [newAddr] [] } := .start
  have hu : ∀ {s : GState (fun _ : Unit => MetadataResponse)} {p : Prog MetadataResponse}, s.progs () = p → p ≠ .ret .panic →
      ∀ j, s.progs j ≠ .ret .panic := fun h1 h2 j => by cases j; rw [h1]; exact h2
  have h1 : ({ s0 with client := newClient [newAddr] [] } : GState _).progs () = Prog.metadata 1 [] := by rw [hs0]; rfl
  obtain ⟨s2, r2, h2, c2, t2, -⟩ := r1.go () (hu h1 (by intro h; cases h)) h1 rfl (t := []) (by rw [hs0]; rfl) (PStep.addr (tr := []) _ _)
  obtain ⟨s3, r3, h3, c3, t3, -⟩ := r2.go () (hu h2 (by intro h; cases h)) h2 c2 t2 (.opts _)
  obtain ⟨s4, r4, h4, c4, t4, -⟩ := r3.go () (hu h3 (by intro h; cases h)) h3 c3 t3 (.opts _)
  obtain ⟨s5, r5, h5, c5, t5, -⟩ := r4.go () (hu h4 (by intro h; cases h)) h4 c4 t4 (.down _ _ _ e)
  exact ⟨s5, r0.fixed r5, h5, _, by rw [t5]; rfl⟩

/-- C82 is false: the slice belongs to the caller, too. -/
theorem C82_fails : ¬ C82_statement := by
  intro h
  obtain ⟨s, h1, h2, mode, h3⟩ := redirected ⟨0⟩
  obtain ⟨env, h4⟩ := h Unit _ _ _ _ s h1 () _ h2
  rw [h3, ← prog_run] at h4
  obtain ⟨mode', k, h5⟩ : ∃ (mode' : DialMode) (k : Except NetErr Nat → Prog MetadataResponse),
      ((ClientOp.metadata []).prog 1).run (newClient [oldAddr] []) = (Prog.dial oldAddr mode' k).run (newClient [oldAddr] []) :=
    ⟨_, _, rfl⟩
  have h6 : ((Prog.dial oldAddr mode' k).run (newClient [oldAddr] []) env []).2 =
      [.dial newAddr mode (some ⟨0⟩)] := by rw [← h5]; exact congrArg Prod.snd h4
  simp only [Prog.run] at h6
  split at h6
  all_goals
    obtain ⟨t, h7⟩ := Prog.run_extends (newClient [oldAddr] []) env (k _) _
    rw [h7] at h6
    simp [oldAddr, newAddr] at h6

/-- An iteration of the loop of `dialBootstrap` in which the dial fails, for a client without options. -/
theorem GReachFixed.iterate {ι α : Type} [DecidableEq ι] {start s : GState (fun _ : ι => α)} (h : GReachFixed start s) (i : ι)
    {callback : Handle → Prog α} {zero : α} {n k : Nat} {last : Option Err} {as : List GoString} {t : List (ι × Event)} (e : NetErr)
    (hn : ∀ j, s.progs j ≠ .ret .panic) (hp : s.progs i = Prog.dialLoop callback zero (n + 1) k last)
    (hc : s.client = newClient as []) (ht : s.trace = t) :
    ∃ s', GReachFixed start s' ∧
      s'.progs i = Prog.dialLoop callback zero n (k + 1) (some (.wrap (.dial (as.getD k [])) (.net e))) ∧
      s'.client = newClient as [] ∧ s'.trace = t ++ [(i, .dial (as.getD k []) (dialMode (buildConfig [])) (some e))] ∧
      ∀ j, j ≠ i → s'.progs j = s.progs j := by
  have keep : ∀ {s s' : GState (fun _ : ι => α)}, (∀ j, s.progs j ≠ .ret .panic) → (∀ j, j ≠ i → s'.progs j = s.progs j) →
      ∀ {p : Prog α}, s'.progs i = p → p ≠ .ret .panic → ∀ j, s'.progs j ≠ .ret .panic := by
    intro s s' h1 h2 p h3 h4 j
    by_cases hj : j = i
    · rw [hj, h3]; exact h4
    · rw [h2 j hj]; exact h1 j
  obtain ⟨s1, r1, p1, c1, t1, o1⟩ := h.go i hn hp hc ht (.addr _ _)
  have n1 := keep hn o1 p1 (by intro h; cases h)
  obtain ⟨s2, r2, p2, c2, t2, o2⟩ := r1.go i n1 p1 c1 t1 (.opts _)
  have n2 := keep n1 o2 p2 (by intro h; cases h)
  obtain ⟨s3, r3, p3, c3, t3, o3⟩ := r2.go i n2 p2 c2 t2 (.opts _)
  have n3 := keep n2 o3 p3 (by intro h; cases h)
  obtain ⟨s4, r4, p4, c4, t4, o4⟩ := r3.go i n3 p3 c3 t3 (.down _ _ _ e)
  refine ⟨s4, r4, p4, c4, ?_, fun j hj => by rw [o4 j hj, o3 j hj, o2 j hj, o1 j hj]⟩
  rw [t4]
  simp
  exact ⟨rfl, rfl⟩

/-- A case of `C82_partial`: two operations at once, which dial in turns. -/
example (e1 e2 e3 e4 : NetErr) : ∃ s : GState (fun _ : Bool => MetadataResponse),
    GReachFixed (gstart [oldAddr, newAddr] [] fun b => ClientOp.metadata (if b then [[116#8]] else [])) s ∧
    s.trace.map (fun x => (x.1, match x.2 with | .dial a _ r => some (a, r) | _ => none)) =
      [(true, some (oldAddr, some e1)), (false, some (oldAddr, some e2)), (true, some (newAddr, some e3)),
        (false, some (newAddr, some e4))] ∧
    s.progs true = .ret (.err (.wrap (.dial newAddr) (.net e3))) ∧ s.progs false = .ret (.err (.wrap (.dial newAddr) (.net e4))) := by
  have h0 : GReachFixed (gstart [oldAddr, newAddr] [] fun b : Bool => ClientOp.metadata (if b then [[116#8]] else []))
    (gstart [oldAddr, newAddr] [] fun b : Bool => ClientOp.metadata (if b then [[116#8]] else [])) := .start
  have np : ∀ {s : GState (fun _ : Bool => MetadataResponse)} {p q : Prog MetadataResponse}, s.progs true = p → s.progs false = q →
      p ≠ .ret .panic → q ≠ .ret .panic → ∀ j, s.progs j ≠ .ret .panic := by
    intro s p q h1 h2 h3 h4 j
    cases j
    · rw [h2]; exact h4
    · rw [h1]; exact h3
  obtain ⟨s1, r1, p1, c1, t1, o1⟩ := h0.iterate (last := none) true e1 (np rfl rfl (by intro h; cases h) (by intro h; cases h)) rfl rfl rfl
  have q1 := o1 false (by decide)
  obtain ⟨s2, r2, p2, c2, t2, o2⟩ := r1.iterate (last := none) false e2 (np p1 q1 (by intro h; cases h) (by intro h; cases h)) q1 c1 t1
  have q2 := o2 true (by decide)
  rw [p1] at q2
  obtain ⟨s3, r3, p3, c3, t3, o3⟩ := r2.iterate true e3 (np q2 p2 (by intro h; cases h) (by intro h; cases h)) q2 c2 t2
  have q3 := o3 false (by decide)
  rw [p2] at q3
  obtain ⟨s4, r4, p4, c4, t4, o4⟩ := r3.iterate false e4 (np p3 q3 (by intro h; cases h) (by intro h; cases h)) q3 c3 t3
  have q4 := o4 true (by decide)
  rw [p3] at q4
  refine ⟨s4, r4, ?_, q4, p4⟩
  rw [t4]
  rfl

end Kafka.Props
