import Verif.Props.Close
import Verif.Props.Timely
/-!
C55, exactly: when closing an idle connection can crash the program.
-/
set_option linter.unusedSimpArgs false

namespace Kafka.Props

open Kafka Kafka.Conn

/-- What is in the `i`-th place of the ring buffer behind the last byte received: the byte received one turn of the buffer
before, or zero. -/
def leftover (N : Nat) (bs : List Byte) (i : Nat) : Byte :=
  if bs.length + i < N then 0 else bs.getD (bs.length + i - N) 0

/-- The next four bytes, read as the size of a frame. -/
def leftoverSize (N : Nat) (bs : List Byte) : Int :=
  Wire.readInt32 (leftover N bs 0) (leftover N bs 1) (leftover N bs 2) (leftover N bs 3)

/-- `messageLoop` reads the size of a frame: it waits, or reads what is left in the buffer because of `Close`. -/
def StaleHead (N n : Nat) (c : Bool) (old : Nat → Byte) (r : Ring.State) : Prop :=
  r.rn = 4 ∧ match r.rpc with
    | .load1 | .load2 => r.got.length = n
    | .store | .reload | .waitCas | .waitSend => r.got.length = n ∧ r.ri = 0 ∧ r.rread = 0 ∧ r.rnext = n % N
    | .get => c = true ∧ r.ri < 4 ∧ r.got.length = n + r.ri ∧ r.rdst.take r.ri = (List.range r.ri).map old ∧ r.rnext = n % N
    | .fstore | .frelCas | .frelRecv | .idle => c = true ∧ r.rdst.take 4 = (List.range 4).map old
    | _ => False

theorem StaleHead.mono {N n : Nat} {c : Bool} {old : Nat → Byte} {r : Ring.State} (h : StaleHead N n c old r) :
    StaleHead N n true old r := by
  obtain ⟨h1, h2⟩ := h
  refine ⟨h1, ?_⟩
  cases hpc : r.rpc <;> simp only [hpc] at h2 ⊢ <;> first | exact h2 | exact ⟨trivial, h2.2⟩

theorem StaleHead.w {N n : Nat} {c : Bool} {old : Nat → Byte} {r r' : Ring.State} (h : Still n c r) (hd : StaleHead N n c old r)
    (hs : Ring.step N .w r = some r') : StaleHead N n c old r' := by
  rcases h.input with h3 | ⟨h3, h5 | h5 | h5⟩
  · simp [Ring.step, Ring.wStep, h3] at hs
  · simp only [Ring.step, Ring.wStep, h5, Option.some.injEq] at hs
    subst hs
    exact hd
  · simp only [Ring.step, Ring.wStep, h5, Option.some.injEq, Ring.wLoop, h3, Nat.lt_irrefl, if_false] at hs
    subst hs
    exact hd
  · simp only [Ring.step, Ring.wStep, h5, Option.some.injEq, h3, Ring.wReturn] at hs
    rw [if_neg (by omega)] at hs
    subst hs
    exact hd

/-- The reader does not disturb. -/
theorem Still.r {N n : Nat} {r r' : Ring.State} (h : Still n true r) (hs : Ring.step N .r r = some r') : Still n true r' := by
  obtain ⟨h1, h2, h3, h4⟩ := h
  have key : r'.put = r.put ∧ r'.pub = r.pub ∧ r'.wpc = r.wpc ∧ r'.wn = r.wn := by
    have rl : ∀ x : Ring.State, (Ring.rLoop x).put = x.put ∧ (Ring.rLoop x).pub = x.pub ∧ (Ring.rLoop x).wpc = x.wpc ∧
        (Ring.rLoop x).wn = x.wn := by
      intro x
      unfold Ring.rLoop
      split
      · split <;> exact ⟨rfl, rfl, rfl, rfl⟩
      · exact ⟨rfl, rfl, rfl, rfl⟩
    simp only [Ring.step, Ring.rStep] at hs
    (repeat' split at hs) <;> simp only [Option.some.injEq, reduceCtorEq] at hs <;> subst hs <;>
      simp [Ring.rWaited, Ring.rReturn, rl]
  obtain ⟨k1, k2, k3, k4⟩ := key
  exact ⟨by rw [k1, h1], by rw [k2, h2], by rw [NoInput, k3, k4]; exact h3, fun _ => .inr rfl⟩

theorem Still.rStale {N n : Nat} {c : Bool} {old : Nat → Byte} {r r' : Ring.State} (hN : 4 ≤ N)
    (ho : ∀ i, i < 4 → r.mem ((n + i) % N) = old i) (hp : Ring.Pos N r)
    (hl : r.rn ≤ r.rdst.length) (hc : r.closed = true → c = true) (h : Still n c r) (hd : StaleHead N n c old r)
    (hs : Ring.step N .r r = some r') : Still n c r' ∧ StaleHead N n c old r' := by
  obtain ⟨h1, h2, h3, h4⟩ := h
  obtain ⟨h5, h6⟩ := hd
  have hnext : r.next = n % N := by rw [hp.next, h2]
  have hst : r.rpc.loaded = true → r.rpos = r.got.length % N := hp.rpos
  cases hpc : r.rpc <;> simp only [hpc, Ring.RPc.loaded, reduceCtorEq, false_or] at h4 h6 hst <;>
    simp only [Ring.step, Ring.rStep, hpc] at hs
  case idle => cases hs
  case load1 =>
    cases hs
    exact ⟨⟨h1, h2, h3, fun g => .inr (h4 g)⟩, h5, h6⟩
  case load2 =>
    cases hs
    have e : r.rpos = r.next := by rw [hnext, hst (by simp), h6]
    simp only [Ring.rLoop, h5, e, if_true, Nat.zero_lt_succ]
    exact ⟨⟨h1, h2, h3, fun g => .inr (h4 g)⟩, rfl, h6, rfl, rfl, hnext⟩
  case store =>
    obtain ⟨g1, g2, g3, g4⟩ := h6
    rw [if_neg (by omega)] at hs
    cases hs
    exact ⟨⟨h1, h2, h3, fun g => .inr (h4 g)⟩, h5, g1, g2, g3, g4⟩
  case reload =>
    obtain ⟨g1, g2, g3, g4⟩ := h6
    have e : r.rpos = r.next := by rw [hnext, hst (by simp), g1]
    rw [if_pos e] at hs
    cases hs
    exact ⟨⟨h1, h2, h3, fun g => .inr (h4 g)⟩, h5, g1, g2, g3, hnext⟩
  case waitCas =>
    obtain ⟨g1, g2, g3, g4⟩ := h6
    split at hs
    · rename_i g
      cases hs
      exact ⟨⟨h1, h2, h3, fun g => .inr (h4 g)⟩, h5, h4 g, by simp [Ring.rWaited, g2], by simpa [Ring.rWaited, g2] using g1,
        by simp [Ring.rWaited, g2], g4⟩
    · cases hs
      exact ⟨⟨h1, h2, h3, fun _ => .inl rfl⟩, h5, g1, g2, g3, g4⟩
  case waitSend =>
    obtain ⟨g1, g2, g3, g4⟩ := h6
    split at hs
    · rename_i g
      cases hs
      exact ⟨⟨h1, h2, h3, fun _ => .inr (hc g)⟩, h5, hc g, by simp [Ring.rWaited, g2], by simpa [Ring.rWaited, g2] using g1,
        by simp [Ring.rWaited, g2], g4⟩
    · cases hs
  case get =>
    obtain ⟨g1, g2, g3, g4, g5⟩ := h6
    cases hs
    have e1 : r.rpos = (n + r.ri) % N := by rw [hst (by simp), g3]
    have e2 : r.mem r.rpos = old r.ri := by rw [e1, ho _ g2]
    have e3 : (r.rdst.set r.ri (old r.ri)).take (r.ri + 1) = (List.range (r.ri + 1)).map old := by
      rw [List.take_add_one, List.take_set_of_le (Nat.le_refl _), g4, List.getElem?_set_self (by omega), List.range_succ,
        List.map_append]
      rfl
    simp only [e2, Ring.rLoop, h5]
    split
    · rename_i g
      have e4 : Ring.incr N r.rpos ≠ r.rnext := by
        rw [e1, g5, Ring.incr_mod (by omega)]
        intro e
        have := Ring.mod_inj (N := N) (a := n) (b := n + r.ri + 1) (by omega) (by omega) e.symm
        omega
      rw [if_neg e4]
      exact ⟨⟨h1, h2, h3, fun _ => .inr g1⟩, rfl, g1, g, by simp [g3]; omega, e3, g5⟩
    · have e5 : r.ri = 3 := by omega
      rw [e5] at e3 
      exact ⟨⟨h1, h2, h3, fun _ => .inr g1⟩, rfl, g1, by rw [e5]; exact e3⟩
  case fstore =>
    cases hs
    split
    · exact ⟨⟨h1, h2, h3, fun _ => .inr h6.1⟩, h5, h6⟩
    · exact ⟨⟨h1, h2, h3, fun _ => .inr h6.1⟩, h5, h6⟩
  case frelCas =>
    split at hs <;> cases hs
    · exact ⟨⟨h1, h2, h3, fun _ => .inr h6.1⟩, h5, h6⟩
    · exact ⟨⟨h1, h2, h3, fun _ => .inr h6.1⟩, h5, h6⟩
  case frelRecv =>
    split at hs <;> cases hs
    exact ⟨⟨h1, h2, h3, fun _ => .inr h6.1⟩, h5, h6⟩

/-- `messageLoop` has nothing to read, or reads one frame of what is left in the buffer because of `Close`; `v` is the size of
that frame. -/
structure Stale (N : Nat) (bs : List Byte) (s : Conn.State) : Prop where
  crashed : s.crashed = false
  put : s.ring.put = bs
  ring : Still bs.length s.cancelled s.ring
  mpc : match s.mpc with
    | .top => s.cancelled = true ∨ s.ring.rpc = .idle ∧ s.ring.got.length = bs.length
    | .inHead => StaleHead N bs.length s.cancelled (leftover N bs) s.ring
    | .inBody size => size = leftoverSize N bs ∧ s.cancelled = true
    | _ => s.cancelled = true

theorem leftover_mem {N : Nat} (hN : 4 ≤ N) {r : Ring.State} (h : Ring.Hist N r) {i : Nat} (hi : i < 4) :
    r.mem ((r.put.length + i) % N) = leftover N r.put i := by
  unfold leftover
  split
  · rw [Nat.mod_eq_of_lt (by assumption)]
    exact h.fresh _ (by omega) (by omega)
  · rw [← h.last _ (by omega) (by omega)]
    congr 1
    rw [← Nat.add_mod_right (r.put.length + i - N) N]
    congr 1
    omega

theorem headSize_leftover {old : Nat → Byte} {buf : List Byte} (h : buf.take 4 = (List.range 4).map old) :
    headSize buf = some (Wire.readInt32 (old 0) (old 1) (old 2) (old 3)) := by
  obtain ⟨v, h1, h2⟩ := headSize_eq (buf := buf) (by
    have := congrArg List.length h
    simp only [List.length_take, List.length_map, List.length_range] at this
    omega)
  obtain ⟨a, b, c, d, h3, h4⟩ := readInt32_int32 v
  rw [h1, h3] at h
  have h : [a, b, c, d] = [old 0, old 1, old 2, old 3] := h
  injection h with e1 h; injection h with e2 h; injection h with e3 h; injection h with e4 h
  rw [h2, ← h4, e1, e2, e3, e4]

theorem Stale.trans {P : Params} (hN : 4 ≤ P.ring) (hP : 4 ≤ P.buf) {bs : List Byte}
    (hv : leftoverSize P.ring bs ≤ P.buf) {s s' : Conn.State} {a : Act}
    (hr : Conn.Reach P Conn.Any s) (h : Stale P.ring bs s) (ht : Trans P s a s')
    (hrec : s'.received.length = s.received.length) :
    Stale P.ring bs s' ∨ s'.crashed = true ∧ ∃ c d, (s'.calls c).job.panics d = true := by
  have hring : Ring.Reach P.ring Ring.Any s.ring := hr.ring (fun _ _ _ => trivial) (fun _ _ _ => trivial)
  have hpos := hring.pos (by omega)
  have hhist := hring.hist (by omega)
  have hcalls := hring.calls
  have hcl := ringClosed_inv hr
  have hb := hr.frames.buf
  obtain ⟨h1, h0, h2, h3⟩ := h
  cases ht
  case stop hm hc => exact .inl ⟨h1, h0, h2, hc⟩
  case head r hm hc hst =>
    obtain ⟨g1, g2, rfl⟩ := ring_callR hst
    rw [hm] at h3
    have g3 := (h3.resolve_left (by rw [hc]; simp)).2
    refine .inl ⟨h1, h0, ⟨h2.put, h2.pub, h2.input, fun g => ?_⟩, ?_, g3⟩
    · have := h2.rset g
      rw [g1, hc] at this
      simp at this
    · show min 4 s.buf.length = 4
      omega
  case headCrash hm hi hs =>
    rw [hm] at h3
    have g := h3.2
    rw [hi] at g
    rw [headSize_leftover g.2] at hs
    cases hs
  case body size r hm hi hs hst =>
    rw [hm] at h3
    have g := h3.2
    rw [hi] at g
    rw [headSize_leftover g.2] at hs
    cases hs
    obtain ⟨g1, g2, rfl⟩ := ring_callR hst
    exact .inl ⟨h1, h0, ⟨h2.put, h2.pub, h2.input, fun _ => .inr g.1⟩, rfl, g.1⟩
  case bodyCrash size hm hi hs =>
    rw [hm] at h3
    have := h3.1
    omega
  case parse size resp d hm hi hs hd =>
    rw [hm] at h3
    exact .inl ⟨h1, h0, h2, h3.2⟩
  case skip size e d hm hi hs hd =>
    rw [hm] at h3
    exact .inl ⟨h1, h0, h2, .inl h3.2⟩
  case parseCrash size hm hi hs hd =>
    have hz := hr.frames.size size hm
    have hb' := hr.frames.length hm hs
    rcases header_start hz.1 hz.2 (raw := s.ring.rdst) (by omega) with ⟨_, e⟩ | ⟨_, _, _, e⟩
    · rw [e] at hd; cases hd
    · rw [e] at hd; cases hd
  case read data r hl hrc hlen hst =>
    have e : data = [] := by
      simp only [List.length_append] at hrec
      exact List.length_eq_zero_iff.1 (by omega)
    subst e
    simp only [Ring.step] at hst
    split at hst <;> cases hst
    exact .inl ⟨h1, h0, ⟨h2.put, h2.pub, .inr ⟨rfl, .inl rfl⟩, h2.rset⟩, h3⟩
  case ring a r ha hst =>
    left
    cases a <;> try (simp [inRing] at ha; done)
    · have g1 := (h2.w hst).1
      have hw : r.rpc = s.ring.rpc ∧ r.got = s.ring.got ∧ r.put = s.ring.put := by
        rcases h2.input with g | ⟨g0, g | g | g⟩ <;> simp only [Ring.step, Ring.wStep, g, reduceCtorEq, Option.some.injEq] at hst
        · subst hst; exact ⟨rfl, rfl, rfl⟩
        · subst hst; unfold Ring.wLoop; split <;> exact ⟨rfl, rfl, rfl⟩
        · subst hst; split <;> exact ⟨rfl, rfl, rfl⟩
      refine ⟨h1, hw.2.2.trans h0, g1, ?_⟩
      show match s.mpc with
        | .top => s.cancelled = true ∨ r.rpc = .idle ∧ r.got.length = bs.length
        | .inHead => StaleHead P.ring bs.length s.cancelled (leftover P.ring bs) r
        | .inBody size => size = leftoverSize P.ring bs ∧ s.cancelled = true
            | _ => s.cancelled = true
      cases hm : s.mpc <;> rw [hm] at h3 <;> first | exact h3 | skip
      · rw [hw.1, hw.2.1]; exact h3
      · exact StaleHead.w h2 h3 hst
    · have hput : r.put = s.ring.put := by
        rcases Ring.step_cells hst with g | ⟨_, g, _⟩
        · exact g.2
        · rcases h2.input with g' | ⟨_, g' | g' | g'⟩ <;> rw [g'] at g <;> cases g
      have htrue : s.cancelled = true → Still bs.length s.cancelled r := fun hc => by
        rw [hc] at h2 ⊢
        exact Still.r h2 hst
      have hdone : ∀ {m : MPc}, s.mpc = m → s.cancelled = true → (match m with
          | .top => s.cancelled = true ∨ r.rpc = .idle ∧ r.got.length = bs.length
          | .inHead => StaleHead P.ring bs.length s.cancelled (leftover P.ring bs) r
          | .inBody size => size = leftoverSize P.ring bs ∧ s.cancelled = true
          | _ => s.cancelled = true) → Stale P.ring bs { s with ring := r } := fun hm hc h =>
        ⟨h1, hput.trans h0, htrue hc, by rw [hm]; exact h⟩
      obtain ⟨m, hm⟩ : ∃ m, s.mpc = m := ⟨_, rfl⟩
      rw [hm] at h3
      cases m
      case top =>
        rcases h3 with hc | ⟨hi, _⟩
        · exact hdone hm hc (.inl hc)
        · simp [Ring.step, Ring.rStep, hi] at hst
      case inHead =>
        have := Still.rStale hN (old := leftover P.ring bs) (fun i hi => by rw [← h0]; exact leftover_mem hN hhist hi) hpos
          hcalls.rlen hcl h2 h3 hst
        exact ⟨h1, hput.trans h0, this.1, by rw [hm]; exact this.2⟩
      case inBody size => exact hdone hm h3.2 h3
      all_goals exact hdone hm h3 h3
    · rw [h2.hand.1] at hst; cases hst
    · rw [h2.hand.2] at hst; cases hst
  case full hf =>
    obtain ⟨size, hm, hx⟩ := hr.full hP hf
    rw [hm] at h3
    have := h3.1
    omega
  case rbClose k r hk hst =>
    cases hst
    refine .inl ⟨h1, h0, ⟨h2.put, h2.pub, h2.input, h2.rset⟩, h3⟩
  case cancel k hk =>
    refine .inl ⟨h1, h0, h2.mono, ?_⟩
    show match s.mpc with
      | .top => true = true ∨ s.ring.rpc = .idle ∧ s.ring.got.length = bs.length
      | .inHead => StaleHead P.ring bs.length true (leftover P.ring bs) s.ring
      | .inBody size => size = leftoverSize P.ring bs ∧ true = true
        | _ => true = true
    cases hm : s.mpc <;> rw [hm] at h3 <;> first | trivial | exact .inl rfl | exact h3.mono | exact ⟨h3.1, rfl⟩
  case decodeCrash d c hm hp => exact .inr ⟨rfl, c, d, hp⟩
  case mlock id d hm _ => rw [hm] at h3; exact .inl ⟨h1, h0, h2, h3⟩
  case lookup id d hm => rw [hm] at h3; exact .inl ⟨h1, h0, h2, h3⟩
  case delete id d c hm => rw [hm] at h3; exact .inl ⟨h1, h0, h2, h3⟩
  case drop d hm => rw [hm] at h3; exact .inl ⟨h1, h0, h2, .inl h3⟩
  case munlock d c hm => rw [hm] at h3; exact .inl ⟨h1, h0, h2, h3⟩
  case decode d c hm _ => rw [hm] at h3; exact .inl ⟨h1, h0, h2, h3⟩
  case send d c hm _ => rw [hm] at h3; exact .inl ⟨h1, h0, h2, .inl h3⟩
  all_goals exact .inl ⟨h1, h0, h2, h3⟩

theorem Stale.run {P : Params} (hN : 4 ≤ P.ring) (hP : 4 ≤ P.buf) {bs : List Byte} (hv : leftoverSize P.ring bs ≤ P.buf) :
    ∀ (as : List Act) {s s' : Conn.State}, Conn.Reach P Conn.Any s → Stale P.ring bs s → Conn.run P as s = some s' →
    s'.received.length = s.received.length → s'.crashed = false ∨ ∃ c d, (s'.calls c).job.panics d = true
  | [], s, s', _, h, hrun, _ => by cases hrun; exact .inl h.crashed
  | a :: as, s, s', hr, h, hrun, hl => by
    simp only [Conn.run] at hrun
    obtain ⟨s1, h1, h2⟩ := Option.bind_eq_some_iff.1 hrun
    have g1 := received_trans (step_trans h1)
    have g2 := received_run h2
    rcases h.trans hN hP hv hr (step_trans h1) (by omega) with h3 | ⟨h3, h4⟩
    · exact Stale.run hN hP hv as (hr.step a trivial h1) h3 h2 (by omega)
    · cases as with
      | nil => cases h2; exact .inr h4
      | cons b bs => simp [Conn.run, Conn.step, h3] at h2

theorem Calm.ringIdle {P : Params} {s : Conn.State} (hr : Conn.Reach P Conn.Any s) (hP : 4 ≤ P.buf) (h : Conn.Calm P s) :
    s.ring.put = s.received ∧ s.ring.got.length = s.received.length := by
  have hq := h.quiet
  have hput : s.ring.put = s.received := by
    rw [← (hr.stream hP).given, hq.calls.given, hq.wpc]
    simp [Ring.WPc.wrote, hq.calls.wlen]
  refine ⟨hput, ?_⟩
  have h1 := h.empty
  have h2 := hq.fifo.pre.length_le
  simp only [Ring.queue, List.drop_eq_nil_iff] at h1
  rw [hput] at h1 h2
  omega

theorem Calm.stale {P : Params} {s : Conn.State} (hr : Conn.Reach P Conn.Any s) (hP : 4 ≤ P.buf) (h : Conn.Calm P s) :
    Stale P.ring s.received s := by
  obtain ⟨h1, h2⟩ := Calm.ringIdle hr hP h
  refine ⟨h.crashed, h1, (Calm.dry hr hP h).ring, ?_⟩
  rw [h.mpc]
  exact .inr ⟨h.quiet.rpc, h2⟩

theorem oversize_crash' {P : Params} : ∀ (n : Nat) {s : Conn.State}, Ring.rCost s.ring ≤ n → s.crashed = false →
    s.ring.closed = true → Conn.Filling s →
    ∃ s', Leads P s s' ∧ s'.received = s.received ∧ s'.crashed = true ∧ s'.calls = s.calls
  | n, s, hn, hc, hcl, hp => by
    cases hf : full s with
    | true => exact ⟨_, .step (.ring .r) (step_full hc hf) (.refl _), rfl, rfl, rfl⟩
    | false =>
      obtain ⟨r, hr⟩ := Option.isSome_iff_exists.1 (Ring.rStep_enabled (N := P.ring) hcl hp.idle)
      have h1 := Ring.rStep_cost hr
      match n with
      | 0 => omega
      | n + 1 =>
        obtain ⟨s', h2, h3⟩ := oversize_crash' n (s := { s with ring := r }) (by show Ring.rCost r ≤ n; omega) hc
          (by rw [← hcl]; exact (Ring.rStep_wCost hr).2) (hp.next hf hr)
        exact ⟨s', .step (.ring .r) (step_ringR hc hf hr) h2, h3⟩

theorem closing_crash {P : Params} (hN : 4 ≤ P.ring) (hP : 4 ≤ P.buf) {s : Conn.State} (hr : Conn.Reach P Conn.Any s)
    (hcalm : Conn.Calm P s) (hcl : s.closers 0 = .cancel) (hv : (P.buf : Int) < leftoverSize P.ring s.received) :
    ∃ s', Leads P s s' ∧ s'.received = s.received ∧ s'.crashed = true ∧ s'.calls = s.calls := by
  have hq := hcalm.quiet
  obtain ⟨hput, hgot⟩ := Calm.ringIdle hr hP hcalm
  have hring : Ring.Reach P.ring Ring.Any s.ring := hr.ring (fun _ _ _ => trivial) (fun _ _ _ => trivial)
  have hnext : s.ring.next = s.received.length % P.ring := by
    rw [hq.pos.next, hq.pos.wpub (by rw [hq.wpc]; rfl), hput]
  have hstart : s.ring.start = s.received.length % P.ring := by
    rw [hq.pos.start, hq.pos.rrel (by rw [hq.rpc]; rfl), hgot]
  have hmem : ∀ i, i < 4 → s.ring.mem ((s.received.length + i) % P.ring) = leftover P.ring s.received i := fun i hi => by
    rw [← hput]; exact leftover_mem hN (hring.hist (by omega)) hi
  have hinc : ∀ i, Ring.incr P.ring ((s.received.length + i) % P.ring) = (s.received.length + (i + 1)) % P.ring := fun i => by
    rw [Ring.incr_mod (by omega)]; rfl
  have hne : ∀ i, 0 < i → i < 4 → (s.received.length + i) % P.ring ≠ s.received.length % P.ring := fun i h1 h2 e => by
    have := Ring.mod_inj (N := P.ring) (a := s.received.length) (b := s.received.length + i) (by omega) (by omega) e.symm
    omega
  have m0 := hmem 0 (by omega)
  have m1 := hmem 1 (by omega)
  have m2 := hmem 2 (by omega)
  have m3 := hmem 3 (by omega)
  have i0 := hinc 0
  have i1 := hinc 1
  have i2 := hinc 2
  have i3 := hinc 3
  have n1 := hne 1 (by omega) (by omega)
  have n2 := hne 2 (by omega) (by omega)
  have n3 := hne 3 (by omega) (by omega)
  have hsz : ∀ t, headSize (leftover P.ring s.received 0 :: leftover P.ring s.received 1 :: leftover P.ring s.received 2 ::
      leftover P.ring s.received 3 :: t) = some (leftoverSize P.ring s.received) := fun t => headSize_leftover rfl
  simp only [Nat.add_zero, Nat.zero_add, Nat.reduceAdd] at m0 m1 m2 m3 i0 i1 i2 i3
  generalize s.received.length % P.ring = p0 at *
  generalize (s.received.length + 1) % P.ring = p1 at *
  generalize (s.received.length + 2) % P.ring = p2 at *
  generalize (s.received.length + 3) % P.ring = p3 at *
  generalize (s.received.length + 4) % P.ring = p4 at *
  generalize leftover P.ring s.received 0 = o0 at *
  generalize leftover P.ring s.received 1 = o1 at *
  generalize leftover P.ring s.received 2 = o2 at *
  generalize leftover P.ring s.received 3 = o3 at *
  generalize leftoverSize P.ring s.received = v at *
  have hopen : s.ring.closed = false := by
    cases h1 : s.ring.closed with
    | false => rfl
    | true => have := ringClosed_inv hr h1; rw [hcalm.cancelled] at this; cases this
  have hbuf := hr.frames.buf
  obtain ⟨b0, b1, b2, b3, t, ht⟩ : ∃ b0 b1 b2 b3 t, s.buf = b0 :: b1 :: b2 :: b3 :: t := by
    match hm : s.buf with
    | b0 :: b1 :: b2 :: b3 :: t => exact ⟨_, _, _, _, _, rfl⟩
    | [] | [_] | [_, _] | [_, _, _] => rw [hm] at hbuf; simp at hbuf; omega
  rw [ht] at hbuf
  simp only [List.length_cons] at hbuf
  refine Leads.next .message (by
    simp [Conn.step, messageStep, readN, hcalm.crashed, hcalm.mpc, hcalm.cancelled, ht, Ring.step, hq.rpc]; rfl) ?_
  iterate 5 refine Leads.next (.ring .r) (by
    simp [Conn.step, hcalm.crashed, inRing, Ring.step, Ring.rStep, Ring.rLoop, hq.rset, hstart, hnext]; rfl) ?_
  iterate 2 refine Leads.next (.close 0) (by simp [Conn.step, hcalm.crashed, closeStep, Ring.step, hcl]; rfl) ?_
  iterate 7 refine Leads.next (.ring .r) (by
    simp [Conn.step, hcalm.crashed, inRing, Ring.step, Ring.rStep, Ring.rLoop, Ring.rWaited, Ring.rReturn,
      hq.wset, m0, m1, m2, m3, i0, i1, i2, i3, n1, n2, n3]; rfl) ?_
  have hroom : room (o0 :: o1 :: o2 :: o3 :: t) v = o0 :: o1 :: o2 :: o3 :: (t ++ [0]) := by
    rw [room, if_pos (by simp only [List.length_cons]; omega)]
    rfl
  have hmin : min (Int.toNat v) (t.length + 1 + 1 + 1 + 1 + 1) = t.length + 1 + 1 + 1 + 1 + 1 :=
    Nat.min_eq_right (by omega)
  refine Leads.next .message (by
    simp only [Conn.step, messageStep, readN, Ring.step, hsz, hroom, hmin, List.length_cons, List.length_append, List.length_nil,
      Nat.zero_add, Nat.le_refl, and_self, if_true, Option.map_some, Bool.false_eq_true, if_false]; rfl) ?_
  refine oversize_crash' _ (Nat.le_refl _) rfl rfl ⟨?_, .inl rfl⟩
  show t.length + 1 + 1 + 1 + 1 + 1 = (o0 :: o1 :: o2 :: o3 :: t).length + 1
  rfl

/-- **C55, exactly.**  On an idle connection, something that happens without the peer sending more can crash the program if and
only if the four bytes behind the last one received, left in the ring buffer from before, are a size greater than the
buffer.  (Panics of the functions passed to `Do` aside.) -/
theorem C55_exact {P : Params} (hN : 4 ≤ P.ring) (hP : 4 ≤ P.buf) {s : Conn.State} (hr : Conn.Reach P Conn.Any s)
    (hs : Conn.Calm P s) (hj : ∀ c d, (s.calls c).job.panics d = false) :
    (∃ as s', Conn.run P as s = some s' ∧ s'.received = s.received ∧ s'.crashed = true ∧
      ∀ c d, (s'.calls c).job.panics d = false) ↔ (P.buf : Int) < leftoverSize P.ring s.received := by
  constructor
  · rintro ⟨as, s', h1, h2, h3, h4⟩
    refine Int.not_le.1 fun hle => ?_
    rcases (Calm.stale hr hP hs).run hN hP hle as hr h1 (by rw [h2]) with h5 | ⟨c, d, h5⟩
    · rw [h3] at h5; cases h5
    · rw [h4 c d] at h5; cases h5
  · intro hv
    obtain ⟨s1, l1, h1, h2, h3, h4, h5⟩ : ∃ s1, Leads P s s1 ∧ Conn.Calm P s1 ∧ s1.closers 0 = .cancel ∧
        s1.received = s.received ∧ s1.calls = s.calls ∧ True := by
      cases hc : s.closers 0 with
      | cancel => exact ⟨s, .refl _, hs, hc, rfl, rfl, trivial⟩
      | absent =>
        obtain ⟨s1, hs1⟩ : ∃ s1 : Conn.State, s1 = { s with closers := fun j => if j = 0 then XPc.cancel else s.closers j } :=
          ⟨_, rfl⟩
        have hst : Conn.step P (.close 0) s = some s1 := by
          rw [hs1]; simp [Conn.step, hs.crashed, closeStep, hc]
        refine ⟨s1, .step (.close 0) hst (.refl _), ?_, ?_, by rw [hs1], by rw [hs1], trivial⟩ <;> subst hs1
        · obtain ⟨g1, g2, g3, g4, g5, g6, g7, g8, g9, g10⟩ := hs
          exact ⟨g1, g2, g3, g4, g5, g6, g7, g8, g9, g10⟩
        · simp
      | _ =>
        have := hr.closed.cancel 0 (by simp [hc]) (by simp [hc])
        rw [hs.cancelled] at this
        cases this
    obtain ⟨s', l2, h6, h7, h8⟩ := closing_crash hN hP (l1.reach hr) h1 h2 (by rw [h3]; exact hv)
    obtain ⟨as, has⟩ := l1.trans l2
    exact ⟨as, s', has, h6.trans h3, h7, by rw [h8, h4]; exact hj⟩

/-- **C55** holds whenever what is left behind the last byte received is not a size greater than the buffer.  Missing: the
other connections (`C55_exact`). -/
theorem C55_leftover_partial {P : Params} (hN : 4 ≤ P.ring) (hP : 4 ≤ P.buf) :
    C55_statement P (fun s => leftoverSize P.ring s.received ≤ P.buf ∧
      ∀ as s', Conn.run P as s = some s' → ∀ c d, (s'.calls c).job.panics d = false) := by
  intro s hr hs ⟨hv, hj⟩ as s' h1 h2
  rcases (Calm.stale hr hP hs).run hN hP hv as hr h1 (by rw [h2]) with h3 | ⟨c, d, h3⟩
  · exact h3
  · rw [hj as s' h1 c d] at h3; cases h3

/-- A new connection meets the hypotheses of `C55_exact` and cannot crash unless bytes arrive. -/
example : ¬∃ as s', Conn.run small as (Conn.init small) = some s' ∧ s'.received = [] ∧ s'.crashed = true ∧
    ∀ c d, (s'.calls c).job.panics d = false := fun h =>
  absurd ((C55_exact (P := small) (by decide) (by decide) .init (Conn.Calm.init (by decide)) (fun _ _ => rfl)).1 h) (by decide +kernel)

/-- Non-trivial instance: a connection on which more has been received than the ring buffer holds. -/
example : ∃ s, Conn.Reach small Conn.Any s ∧ Conn.Calm small s ∧ small.ring < s.received.length ∧
    (small.buf : Int) < leftoverSize small.ring s.received := by
  obtain ⟨s, hr, hcalm, hlen, hold, _⟩ := wrapped (P := small) (by decide) (by decide)
  refine ⟨s, hr, hcalm, by omega, ?_⟩
  have hl : ∀ i, i < 4 → leftover small.ring s.received i = 0x7F := fun i hi => by
    rw [leftover, if_neg (by omega), ← hold i hi]
    congr 1
    omega
  rw [leftoverSize, hl 0 (by decide), hl 1 (by decide), hl 2 (by decide), hl 3 (by decide)]
  decide +kernel

/-- Both sides of `C55_exact`: nothing is left in a new buffer; one of 16 bytes that has received 20 may hold a large size. -/
example : leftoverSize 16 [] = 0 ∧
    leftoverSize 16 ([0, 0, 0, 4, 0x7F, 0x7F, 0x7F, 0x7F] ++ List.replicate 12 0) = 0x7F7F7F7F := by
  decide +kernel

end Kafka.Props
