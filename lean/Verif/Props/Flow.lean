import Verif.Props.Progress
/-!
C77: how much the connection takes in.
-/
set_option linter.unusedSimpArgs false

namespace Kafka.Props

open Conn

/-- The number of bytes of frames, with the lengths in front of them. -/
def wireLength (fs : List (List Byte)) : Nat := (fs.map fun f => f.length + 4).sum

/-- `messageLoop` is not waiting for bytes: it is between two frames, or dispatches one. -/
def Dispatching (s : Conn.State) : Prop := ∀ size, s.mpc ≠ .inHead ∧ s.mpc ≠ .inBody size

/-- The full claim, the first part: what has been received and is not in a frame read is bounded by the size of the ring
buffer and of the buffers of the two loops. -/
def C77_statement (P : Params) (ok : Conn.State → Act → Prop) : Prop :=
  ∀ s, Conn.Reach P ok s → s.received.length ≤ wireLength s.frames + P.ring + 2 * P.buf + 4

/-- The full claim, the second part: while `messageLoop` dispatches a frame, and in whatever state the calls are, `readLoop`
receives what fits, on its own, and not more. -/
def C77_receives_statement (P : Params) (ok : Conn.State → Act → Prop) : Prop :=
  ∀ s, Conn.Reach P ok s → s.crashed = false → (∀ k, s.closers k = .absent) → Dispatching s → s.lpc = .read →
    wireLength s.frames ≤ s.received.length ∧
    ∀ data : List Byte, data.length ≤ P.buf →
      (s.received.length - wireLength s.frames + data.length + 2 ≤ P.ring →
        ∃ r, Leads P s { s with ring := r, received := s.received ++ data }) ∧
      (P.ring < s.received.length - wireLength s.frames + data.length + 2 →
        ∃ r, Leads P s { s with ring := r, lpc := .inWrite, received := s.received ++ data } ∧
          ∀ a, inRing a = true → Ring.step P.ring a r = none)

section
variable {P : Params}

theorem parsed_length {fs : List (List Byte)} {bs : List Byte} (h : Parsed fs bs) : bs.length = wireLength fs := by
  induction h with
  | nil => rfl
  | @snoc fs bs v f _ _ ih =>
    unfold wireLength at *
    rw [wire_int32]
    simp [ih, be32]

theorem ring_wn_keep {N : Nat} {a : Ring.Action} {r r' : Ring.State} (h : Ring.step N a r = some r')
    (ha : ∀ data n, a ≠ .callW data n) : r'.wn = r.wn := by
  cases a with
  | callW data n => exact absurd rfl (ha data n)
  | callR dst n => obtain ⟨_, _, rfl⟩ := ring_callR h; rfl
  | close => simp only [Ring.step, Option.some.injEq] at h; subst h; rfl
  | w =>
    simp only [Ring.step, Ring.wStep] at h
    split at h <;> (try split at h) <;> simp only [Option.some.injEq, reduceCtorEq] at h <;>
      (try split at h) <;> subst h <;> simp [Ring.wReleased, Ring.wWaited, Ring.wReturn]
  | r =>
    simp only [Ring.step, Ring.rStep] at h
    split at h <;> (try split at h) <;> simp only [Option.some.injEq, reduceCtorEq] at h <;>
      (try split at h) <;> subst h <;> simp [Ring.rWaited, Ring.rReturn]
  | handR =>
    simp only [Ring.step] at h
    split at h <;> (try split at h) <;> (try split at h) <;> simp only [Option.some.injEq, reduceCtorEq] at h <;>
      subst h <;> simp [Ring.wReleased, Ring.wWaited, Ring.wReturn, Ring.rWaited, Ring.rReturn]
  | handW =>
    simp only [Ring.step] at h
    split at h <;> (try split at h) <;> (try split at h) <;> simp only [Option.some.injEq, reduceCtorEq] at h <;>
      subst h <;> simp [Ring.wReleased, Ring.wWaited, Ring.wReturn, Ring.rWaited, Ring.rReturn]

theorem wn_le {ok : Conn.State → Act → Prop} {s : Conn.State} (h : Conn.Reach P ok s) : s.ring.wn ≤ P.buf := by
  refine h.inv (I := fun s => s.ring.wn ≤ P.buf) (by simp [Conn.init, Ring.init]) ?_
  intro s s' a hr hi hok ht
  clear hok
  cases ht
  case ring a r ha hst => show r.wn ≤ _; rw [ring_wn_keep hst (by rintro _ _ rfl; cases ha)]; exact hi
  case head r _ _ hst => show r.wn ≤ _; rw [ring_wn_keep hst (by simp)]; exact hi
  case body r _ _ _ hst => show r.wn ≤ _; rw [ring_wn_keep hst (by simp)]; exact hi
  case read data r _ _ hd hst =>
    obtain ⟨_, _, rfl⟩ := ring_callW hst
    exact hd
  case rbClose k r _ hst => show r.wn ≤ _; rw [ring_wn_keep hst (by simp)]; exact hi
  all_goals exact hi

/-- What `messageLoop` has got from the ring buffer. -/
theorem got_le {ok : Conn.State → Act → Prop} {s : Conn.State} (hP : 4 ≤ P.buf) (h : Conn.Reach P ok s) :
    s.ring.got.length ≤ wireLength s.frames + P.buf + 5 := by
  have hst := h.stream hP
  have hc : Ring.Calls s.ring := (h.ring (rok := fun _ _ => True) (fun _ _ _ => trivial) fun _ _ _ => trivial).calls
  have hf := h.frames
  have hgot := congrArg List.length hc.taken
  rw [List.length_append, List.length_take] at hgot
  by_cases hd : Dispatching s
  · obtain ⟨hidle, hp⟩ := hst.out hd
    have := parsed_length hp
    rw [hidle] at hgot
    simp only [Ring.RPc.read] at hgot
    omega
  · by_cases hh : s.mpc = .inHead
    · obtain ⟨bs, h1, h2, h3⟩ := hst.head hh
      have h4 := congrArg List.length h3
      have h5 := parsed_length h1
      have h6 := hf.head hh
      rw [List.length_append] at h4
      by_cases hi : s.ring.rpc = .idle
      · rw [if_pos hi, List.length_take] at h4
        rw [hi] at hgot
        simp only [Ring.RPc.read] at hgot
        omega
      · rw [if_neg hi] at h4
        simp only [List.length_nil] at h4
        omega
    · have : ∃ size, s.mpc = .inBody size := by
        apply Classical.byContradiction
        intro hn
        exact hd fun size => ⟨hh, fun hs => hn ⟨size, hs⟩⟩
      obtain ⟨size, hs⟩ := this
      obtain ⟨bs, v, h1, h2, h3, h4⟩ := hst.body size hs
      have h5 := congrArg List.length h4
      have h6 := parsed_length h1
      have h7 := hf.body size hs
      have h8 : s.ring.rdst.length ≤ P.buf + 1 := by rw [h7]; split <;> omega
      rw [List.length_append, List.length_append, wire_int32] at h5
      simp only [be32, List.length_cons, List.length_nil] at h5
      by_cases hi : s.ring.rpc = .idle
      · rw [if_pos hi, List.length_take] at h5
        rw [hi] at hgot
        simp only [Ring.RPc.read] at hgot
        omega
      · rw [if_neg hi] at h5
        simp only [List.length_nil] at h5
        omega

theorem pacedRing {s : Conn.State} (h : Conn.Reach P (PacedConn P) s) : Ring.Reach P.ring (Ring.Paced P.ring) s.ring :=
  h.ring (fun _ _ h => h) (fun r a ha => by cases a <;> simp [inRing] at ha <;> trivial)

/-- The first part holds in the schedules of C25. -/
theorem C77_partial (hN : 2 ≤ P.ring) (hP : 4 ≤ P.buf) : C77_statement P (PacedConn P) := by
  intro s h
  have hr := pacedRing h
  have hf := hr.fifo hN (fun _ _ h => h)
  have hp := hr.pos (by omega)
  have hc := hr.calls
  have h1 := congrArg List.length hc.given
  rw [(h.stream hP).given, List.length_append, List.length_drop, List.length_take] at h1
  have h2 := wn_le h
  have h3 := got_le hP h
  have h4 := hf.room
  have h5 := hp.rel_le
  omega

theorem wRun_keeps {N : Nat} : ∀ (k : Nat) {r r' : Ring.State}, Ring.run N (List.replicate k .w) r = some r' →
    r.closed = false → r'.rpc = r.rpc
  | 0, r, r', h, _ => by simp only [List.replicate_zero, Ring.run, Option.some.injEq] at h; subst h; rfl
  | k + 1, r, r', h, hc => by
    rw [List.replicate_succ, Ring.run] at h
    obtain ⟨r1, h1, h2⟩ := Option.bind_eq_some_iff.1 h
    rw [wRun_keeps k h2 ((ring_open (by simp) h1).trans hc)]
    simp only [Ring.step, Ring.wStep] at h1
    split at h1 <;> (try split at h1) <;> simp only [Option.some.injEq, reduceCtorEq] at h1 <;>
      (try split at h1) <;> subst h1 <;> simp [Ring.wReleased, Ring.wWaited, Ring.wReturn]

theorem leads_wRun {N : Nat} {P : Params} (hN : P.ring = N) (s : Conn.State) (hc : s.crashed = false) : ∀ (k : Nat) {r r' : Ring.State},
    Ring.run N (List.replicate k .w) r = some r' → Leads P { s with ring := r } { s with ring := r' }
  | 0, r, r', h => by simp only [List.replicate_zero, Ring.run, Option.some.injEq] at h; subst h; exact .refl _
  | k + 1, r, r', h => by
    rw [List.replicate_succ, Ring.run] at h
    obtain ⟨r1, h1, h2⟩ := Option.bind_eq_some_iff.1 h
    subst hN
    refine Leads.step (.ring .w) ?_ (leads_wRun rfl s hc k h2)
    simp [Conn.step, hc, inRing, h1]

theorem ring_wIdle {N : Nat} {a : Ring.Action} {r r' : Ring.State} (h : Ring.step N a r = some r')
    (ha : ∀ data n, a ≠ .callW data n) (hw : r.wpc = .idle) : r'.wpc = .idle := by
  cases a with
  | callW data n => exact absurd rfl (ha data n)
  | callR dst n => obtain ⟨_, _, rfl⟩ := ring_callR h; exact hw
  | close => simp only [Ring.step, Option.some.injEq] at h; subst h; exact hw
  | w => simp [Ring.step, Ring.wStep, hw] at h
  | r =>
    simp only [Ring.step, Ring.rStep] at h
    split at h <;> (try split at h) <;> simp only [Option.some.injEq, reduceCtorEq] at h <;>
      (try split at h) <;> subst h <;> simp [Ring.rWaited, Ring.rReturn, hw]
  | handR => simp [Ring.step, hw] at h
  | handW => simp [Ring.step, hw] at h

/-- Outside `WriteN` `readLoop` leaves the ring buffer alone. -/
theorem read_idle {ok : Conn.State → Act → Prop} {s : Conn.State} (h : Conn.Reach P ok s) :
    s.lpc ≠ .inWrite → s.ring.wpc = .idle := by
  refine h.inv (I := fun s => s.lpc ≠ .inWrite → s.ring.wpc = .idle) (by simp [Conn.init, Ring.init]) ?_
  intro s s' a hr hi hok ht
  clear hok
  cases ht
  case ring a r ha hst => exact fun h => ring_wIdle hst (by rintro _ _ rfl; cases ha) (hi h)
  case head r _ _ hst => exact fun h => ring_wIdle hst (by simp) (hi h)
  case body r _ _ _ hst => exact fun h => ring_wIdle hst (by simp) (hi h)
  case read data r _ _ hd hst => intro h; exact absurd rfl h
  case readErr h _ _ => exact fun _ => hi (by simp [h])
  case readNext _ h => exact fun _ => h
  case rbClose k r _ hst => exact fun h => ring_wIdle hst (by simp) (hi h)
  all_goals exact hi

/-- The second part, too. -/
theorem C77_receives_partial (hN : 2 ≤ P.ring) (hP : 4 ≤ P.buf) : C77_receives_statement P (PacedConn P) := by
  intro s h hc hcl hd hl
  obtain ⟨o1, o2, o3⟩ := open_inv h hcl
  have hst := h.stream hP
  have hring := pacedRing h
  obtain ⟨hidle, hparsed⟩ := hst.out hd
  have hpair := hring.pair o1
  have hfifo := hring.fifo hN (fun _ _ h => h)
  have hcalls := hring.calls
  have hw : s.ring.wpc = .idle := read_idle h (by simp [hl])
  have hq : Ring.Quiet P.ring s.ring := ⟨hring.pos (by omega), hfifo, hcalls, hw, hidle, by
    have := hpair.rset; rw [hidle] at this; simpa using this, by
    have := hpair.wset; rw [hw] at this; simpa using this⟩
  have hput : s.ring.put = s.received := by
    have := hcalls.given
    rw [hw, hst.given] at this
    simp only [Ring.WPc.wrote] at this
    rw [this, List.drop_eq_nil_of_le (by rw [List.length_take]; omega), List.append_nil]
  have hgot : s.ring.got = s.ring.taken := by
    have := hcalls.taken
    rw [hidle] at this
    simpa [Ring.RPc.read] using this
  have hlen : (Ring.queue s.ring).length = s.received.length - wireLength s.frames := by
    rw [(Ring.queue_length hq).1, hput, hgot, parsed_length hparsed]
  refine ⟨?_, fun data hdata => ⟨fun hroom => ?_, fun hroom => ?_⟩⟩
  · rw [← parsed_length hparsed, ← hput, ← hgot]
    exact (Ring.queue_length hq).2.2.2
  · obtain ⟨r, h1, _⟩ := leads_read hN hc hl o3 hq hdata (by omega)
    exact ⟨r, h1⟩
  · obtain ⟨k, r, h1, h2, h3⟩ := Ring.seqWrite_waits hN hq (Nat.le_refl data.length) (by omega)
    rw [Ring.run] at h1
    obtain ⟨r0, h4, h5⟩ := Option.bind_eq_some_iff.1 h1
    refine ⟨r, Leads.step (.read data) (s1 := { s with ring := r0, lpc := .inWrite, received := s.received ++ data }) ?_
      (leads_wRun rfl { s with lpc := .inWrite, received := s.received ++ data } hc k h5), ?_⟩
    · simp [Conn.step, hc, hl, o3, hdata, h4]
    · have h6 : r.rpc = .idle := by
        rw [wRun_keeps k h5 ((ring_open (by simp) h4).trans o1)]
        obtain ⟨_, _, rfl⟩ := ring_callW h4
        exact hidle
      have h7 : r.closed = false := h3.trans o1
      intro a ha
      cases a <;> simp [inRing] at ha <;> simp [Ring.step, Ring.wStep, Ring.rStep, h2, h6, h7]

/-- In a closed ring buffer `WriteN` returns, whatever is unread. -/
theorem closed_writes {N : Nat} : ∀ (n : Nat) {r : Ring.State}, r.closed = true → Ring.wCost r ≤ n →
    ∃ k r', Ring.run N (List.replicate k .w) r = some r' ∧ r'.wpc = .idle ∧ r'.closed = true
  | n, r, hc, hn => by
    by_cases hi : r.wpc = .idle
    · exact ⟨0, r, rfl, hi, hc⟩
    · obtain ⟨r1, h1⟩ := Option.isSome_iff_exists.1 (Ring.wStep_enabled (N := N) hc hi)
      have h2 := Ring.step_wCost (N := N) (a := .w) rfl h1
      simp only [Ring.Action.ofWriter, if_true] at h2
      match n with
      | 0 => omega
      | n + 1 =>
        obtain ⟨k, r', h3, h4⟩ := closed_writes n (Ring.step_closed (N := N) (a := .w) h1 hc) (by omega)
        exact ⟨k + 1, r', by rw [List.replicate_succ, Ring.run]; exact Option.bind_eq_some_iff.2 ⟨r1, h1, h3⟩, h4⟩

/-- `readLoop` goes on receiving when the ring buffer is closed and the network connection is not. -/
theorem closed_receives {s : Conn.State} (h0 : s.crashed = false) (h1 : s.lpc = .read) (h2 : s.rawClosed = false)
    (hP : 1 ≤ P.buf) : ∀ (n : Nat) {r : Ring.State}, r.closed = true → r.wpc = .idle → ∀ bs : List Byte,
    ∃ r', Leads P { s with ring := r, received := bs } { s with ring := r', received := bs ++ List.replicate n 0 }
  | 0, r, _, _, bs => ⟨r, by rw [List.replicate_zero, List.append_nil]; exact .refl _⟩
  | n + 1, r, hc, hw, bs => by
    have h4 : Ring.step P.ring (.callW [0] 1) r = some
        { r with wpc := .load1, wdata := [0], wn := 1, given := r.given ++ [0] } := by simp [Ring.step, hw]
    obtain ⟨k, r1, h5, h6, h7⟩ := closed_writes (N := P.ring) _
      (r := { r with wpc := .load1, wdata := [0], wn := 1, given := r.given ++ [0] }) hc (Nat.le_refl _)
    obtain ⟨r', h8⟩ := closed_receives h0 h1 h2 hP n h7 h6 (bs ++ [0])
    refine ⟨r', ?_⟩
    have e : bs ++ List.replicate (n + 1) 0 = bs ++ [0] ++ List.replicate n (0 : Byte) := by
      rw [List.replicate_succ, List.append_assoc]; rfl
    rw [e]
    refine Leads.step (.read [0]) (s1 := { s with
        ring := { r with wpc := .load1, wdata := [0], wn := 1, given := r.given ++ [0] }, lpc := .inWrite,
        received := bs ++ [0] }) (by simp [Conn.step, h0, h1, h2, hP]; exact h4) ?_
    refine Leads.trans (leads_wRun rfl { s with lpc := .inWrite, received := bs ++ [0] } h0 k h5) ?_
    refine Leads.step .readNext (s1 := { s with ring := r1, received := bs ++ [0] }) ?_ h8
    simp only [Conn.step, h0, h6, h1]
    simp

/-- The first part is false of other schedules: between the closing of the ring buffer and the closing of the network
connection, nothing stops `readLoop`. -/
theorem C77_fails (hP : 1 ≤ P.buf) : ¬C77_statement P Conn.Any := by
  intro h
  have hs : Leads P (Conn.init P) { Conn.init P with
      closers := fun j => if j = 0 then .rawClose else if j = 0 then .rbClose else if j = 0 then .cancel else .absent,
      cancelled := true, ring := { Ring.init with closed := true } } := by
    refine Leads.step (.close 0) (by simp [Conn.step, closeStep, Conn.init]; rfl) ?_
    refine Leads.step (.close 0) (by simp [Conn.step, closeStep]; rfl) ?_
    refine Leads.step (.close 0) (by simp [Conn.step, closeStep, Ring.step]; rfl) ?_
    exact .refl _
  obtain ⟨r, hl⟩ := closed_receives (P := P) (s := { Conn.init P with
      closers := fun j => if j = 0 then .rawClose else if j = 0 then .rbClose else if j = 0 then .cancel else .absent,
      cancelled := true }) rfl rfl rfl hP (P.ring + 2 * P.buf + 5) (r := { Ring.init with closed := true }) rfl rfl []
  obtain ⟨as, hr⟩ := Leads.trans hs hl
  have := h _ (connReach_of_run hr)
  simp [wireLength, Conn.init] at this

theorem run_closers : ∀ (as : List Act), (∀ k, Act.close k ∉ as) → ∀ {s s' : Conn.State}, Conn.run P as s = some s' →
    s'.closers = s.closers
  | [], _, s, s', h => by simp only [Conn.run, Option.some.injEq] at h; subst h; rfl
  | a :: as, ha, s, s', h => by
    rw [Conn.run] at h
    obtain ⟨s1, h1, h2⟩ := Option.bind_eq_some_iff.1 h
    rw [run_closers as (fun k hk => ha k (by simp [hk])) h2]
    have hk : ∀ k, a ≠ .close k := fun k hk => ha k (by simp [hk])
    have ht := step_trans h1
    cases ht <;> first | rfl | exact absurd rfl (hk _)

/-- With the sizes of the code: `readLoop` goes on receiving while less than 5,000,000 bytes, less two, have not been
dispatched, and no more. -/
theorem C77_actual (s : Conn.State) (h : Conn.Reach actual (PacedConn actual) s) (hc : s.crashed = false)
    (hcl : ∀ k, s.closers k = .absent) (hd : Dispatching s) (hl : s.lpc = .read) (hf : s.frames = []) (b : Byte) :
    (s.received.length ≤ 4999997 → ∃ r, Leads actual s { s with ring := r, received := s.received ++ [b] }) ∧
      (4999998 ≤ s.received.length → ∃ r,
        Leads actual s { s with ring := r, lpc := .inWrite, received := s.received ++ [b] } ∧
        ∀ a, inRing a = true → Ring.step 5000000 a r = none) := by
  obtain ⟨_, h1⟩ := C77_receives_partial (P := actual) (by decide) (by decide) s h hc hcl hd hl
  obtain ⟨h2, h3⟩ := h1 [b] (by simp [actual])
  have e : wireLength s.frames = 0 := by rw [hf]; rfl
  exact ⟨fun h => h2 (by simp [actual, e]; omega), fun h => h3 (by simp [actual, e]; omega)⟩

/-- The hypotheses are met at the start. -/
example : Conn.Reach actual (PacedConn actual) (Conn.init actual) ∧ Dispatching (Conn.init actual) :=
  ⟨.init, fun _ => ⟨by simp [Conn.init], by simp [Conn.init]⟩⟩

end

end Kafka.Props
