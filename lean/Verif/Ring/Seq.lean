import Verif.Ring.Fifo
import Verif.Ring.Close
/-!
Calls made one at a time.
-/
set_option linter.unusedSimpArgs false
namespace Kafka.Ring

/-- The writer alone, until its call returns (`none`: it blocks, or takes more than the given
number of operations). -/
def runW (N : Nat) : Nat → State → Option State
  | 0, s => if s.wpc = .idle then some s else none
  | k + 1, s => if s.wpc = .idle then some s else (wStep N s).bind (runW N k)

/-- The reader alone, until its call returns. -/
def runR (N : Nat) : Nat → State → Option State
  | 0, s => if s.rpc = .idle then some s else none
  | k + 1, s => if s.rpc = .idle then some s else (rStep N s).bind (runR N k)

/-- A complete `WriteN(data, n)` while nobody else uses the buffer. -/
def seqWrite (N : Nat) (data : List Byte) (n : Nat) (s : State) : Option State :=
  (step N (.callW data n) s).bind (runW N (7 * n + 5))

/-- A complete `ReadN(dst, n)` while nobody else uses the buffer. -/
def seqRead (N : Nat) (dst : List Byte) (n : Nat) (s : State) : Option State :=
  (step N (.callR dst n) s).bind (runR N (7 * n + 5))

/-- Both goroutines are outside calls; the buffer is in order. -/
structure Quiet (N : Nat) (s : State) : Prop where
  pos : Pos N s
  fifo : Fifo N s
  calls : Calls s
  wpc : s.wpc = .idle
  rpc : s.rpc = .idle
  rset : s.rset = false
  wset : s.wset = false

/-- The bytes put and not yet read. -/
def queue (s : State) : List Byte := s.put.drop s.got.length

theorem Quiet.init {N : Nat} (hN : 2 ≤ N) : Quiet N init :=
  ⟨Pos.init, Fifo.init hN, Calls.init, rfl, rfl, rfl, rfl⟩

/-- What the writer leaves alone. -/
structure WKeeps (s s' : State) : Prop where
  rpc : s'.rpc = s.rpc
  rset : s'.rset = s.rset
  wset : s'.wset = s.wset
  got : s'.got = s.got
  taken : s'.taken = s.taken
  given : s'.given = s.given
  rel : s'.rel = s.rel

/-- What the reader leaves alone. -/
structure RKeeps (s s' : State) : Prop where
  wpc : s'.wpc = s.wpc
  rset : s'.rset = s.rset
  wset : s'.wset = s.wset
  put : s'.put = s.put

theorem WKeeps.trans {s s1 s2 : State} (h : WKeeps s s1) (h' : WKeeps s1 s2) : WKeeps s s2 :=
  ⟨by rw [h'.rpc, h.rpc], by rw [h'.rset, h.rset], by rw [h'.wset, h.wset], by rw [h'.got, h.got],
    by rw [h'.taken, h.taken], by rw [h'.given, h.given], by rw [h'.rel, h.rel]⟩

theorem RKeeps.trans {s s1 s2 : State} (h : RKeeps s s1) (h' : RKeeps s1 s2) : RKeeps s s2 :=
  ⟨by rw [h'.wpc, h.wpc], by rw [h'.rset, h.rset], by rw [h'.wset, h.wset], by rw [h'.put, h.put]⟩

theorem runW_end {N : Nat} (hN : 2 ≤ N) (k : Nat) (s : State) (hp : Pos N s) (hf : Fifo N s)
    (hc : Calls s) (hpc : s.wpc = .fstore) (hres : s.wres = false) (hrs : s.rset = false) :
    ∃ s', runW N (k + 2) s = some s' ∧ Pos N s' ∧ Fifo N s' ∧ Calls s' ∧ s'.wpc = .idle ∧ WKeeps s s' := by
  have h1 : ∃ s1, wStep N s = some s1 ∧ (s1.wpc = .frelCas ∨ s1.wpc = .idle) ∧ s1.rset = false ∧ WKeeps s s1 := by
    unfold wStep
    simp only [hpc]
    refine ⟨_, rfl, ?_⟩
    split
    · exact ⟨Or.inl rfl, hrs, ⟨rfl, rfl, rfl, rfl, rfl, rfl, rfl⟩⟩
    · exact ⟨Or.inr rfl, hrs, ⟨rfl, rfl, rfl, rfl, rfl, rfl, rfl⟩⟩
  obtain ⟨s1, h1, hpc1, hrs1, hk1⟩ := h1
  have hp1 := hp.wStep (by omega) h1
  have hf1 := hf.wStep hN hp (fun h => by rw [hres] at h; simp at h) h1
  have hc1 := hc.wStep h1
  have hrun : runW N (k + 2) s = runW N (k + 1) s1 := by
    rw [runW, if_neg (by rw [hpc]; simp), h1]; rfl
  rcases hpc1 with hpc1 | hpc1
  · have h2 : wStep N s1 = some (wReturn s1) := by
      unfold wStep
      simp only [hpc1, hrs1]
      simp
    refine ⟨wReturn s1, ?_, hp1.wStep (by omega) h2, hf1.wStep hN hp1 ?_ h2, hc1.wStep h2, rfl, ?_⟩
    · rw [hrun, runW, if_neg (by rw [hpc1]; simp), h2]
      show runW N k (wReturn s1) = _
      cases k <;> simp [runW, wReturn]
    · intro _ h; rw [hpc1] at h; simp at h
    · exact ⟨hk1.rpc, hk1.rset, hk1.wset, hk1.got, hk1.taken, hk1.given, hk1.rel⟩
  · refine ⟨s1, ?_, hp1, hf1, hc1, hpc1, hk1⟩
    rw [hrun, runW, if_pos hpc1]

theorem wLoop_keeps (s : State) : WKeeps s (wLoop s) := by
  constructor <;> simp

/-- With room for one more byte besides, the next byte is put without further ado. -/
theorem put_step {N : Nat} (hN : 2 ≤ N) {s : State} (hp : Pos N s) (hf : Fifo N s)
    (hpc : s.wpc = .put) (hroom : s.put.length + 3 ≤ s.wrel + N) :
    ∃ s1, wStep N s = some s1 ∧ s1.wpc = (if s.wi + 1 < s.wn then .put else .fstore) ∧
      s1.wres = s.wres ∧ s1.wn = s.wn ∧ s1.wi = s.wi + 1 ∧ s1.wrel = s.wrel ∧
      s1.put.length = s.put.length + 1 ∧ WKeeps s s1 := by
  unfold wStep
  simp only [hpc]
  rw [if_neg]
  · refine ⟨_, rfl, ?_, by simp, by simp, by simp, by simp, by simp, by constructor <;> simp⟩
    unfold wLoop
    split <;> rfl
  · rw [hp.wpos (by rw [hpc]; rfl), hp.wstart (by rw [hpc]; rfl), incr_mod (by omega), incr_mod (by omega)]
    intro hc
    have h1 := hf.got_le
    have h2 := hp.wrel_le
    have h3 := hp.pub_le
    have h4 := hp.rel_le
    have := mod_inj (by omega) (by omega) hc.symm
    omega

theorem runW_loop {N : Nat} (hN : 2 ≤ N) (m : Nat) : ∀ (fuel : Nat) (s : State), Pos N s → Fifo N s →
    Calls s → s.wpc = .put → s.wres = false → s.rset = false →
    s.wn - s.wi = m + 1 → s.put.length + (m + 1) + 2 ≤ s.wrel + N → m + 3 ≤ fuel →
    ∃ s', runW N fuel s = some s' ∧ Pos N s' ∧ Fifo N s' ∧ Calls s' ∧ s'.wpc = .idle ∧ WKeeps s s' := by
  induction m with
  | zero =>
    intro fuel s hp hf hc hpc hres hrs hm hroom hfuel
    obtain ⟨k, rfl⟩ : ∃ k, fuel = k + 3 := ⟨fuel - 3, by omega⟩
    obtain ⟨s1, h1, hpc1, hres1, _, _, _, _, hk1⟩ := put_step hN hp hf hpc (by omega)
    rw [if_neg (by omega)] at hpc1
    obtain ⟨s2, h2, h3, h4, h5, h6, h7⟩ := runW_end hN k s1 (hp.wStep (by omega) h1)
      (hf.wStep hN hp (fun h => by rw [hres] at h; simp at h) h1) (hc.wStep h1) hpc1
      (hres1.trans hres) (hk1.rset.trans hrs)
    refine ⟨s2, ?_, h3, h4, h5, h6, hk1.trans h7⟩
    rw [runW, if_neg (by rw [hpc]; simp), h1]
    exact h2
  | succ m ih =>
    intro fuel s hp hf hc hpc hres hrs hm hroom hfuel
    obtain ⟨k, rfl⟩ : ∃ k, fuel = k + 1 := ⟨fuel - 1, by omega⟩
    obtain ⟨s1, h1, hpc1, hres1, hn1, hi1, hw1, hl1, hk1⟩ := put_step hN hp hf hpc (by omega)
    rw [if_pos (by omega)] at hpc1
    obtain ⟨s2, h2, h3, h4, h5, h6, h7⟩ := ih k s1 (hp.wStep (by omega) h1)
      (hf.wStep hN hp (fun h => by rw [hres] at h; simp at h) h1) (hc.wStep h1) hpc1
      (hres1.trans hres) (hk1.rset.trans hrs) (by omega) (by omega) (by omega)
    refine ⟨s2, ?_, h3, h4, h5, h6, hk1.trans h7⟩
    rw [runW, if_neg (by rw [hpc]; simp), h1]
    exact h2

theorem queue_length {N : Nat} {s : State} (h : Quiet N s) :
    (queue s).length = s.put.length - s.got.length ∧ s.rel = s.got.length ∧ s.pub = s.put.length ∧
      s.got.length ≤ s.put.length := by
  refine ⟨by simp [queue], h.pos.rrel (by rw [h.rpc]; rfl), h.pos.wpub (by rw [h.wpc]; rfl), ?_⟩
  have := h.fifo.got_le
  have := h.pos.pub_le
  omega

theorem seqWrite_ok {N : Nat} (hN : 2 ≤ N) {s : State} (h : Quiet N s) {data : List Byte} {n : Nat}
    (hn : n ≤ data.length) (hroom : (queue s).length + n + 2 ≤ N) :
    ∃ s', seqWrite N data n s = some s' ∧ Quiet N s' ∧ queue s' = queue s ++ data.take n ∧
      s'.taken = s.taken := by
  obtain ⟨hq1, hq2, hq3, hq4⟩ := queue_length h
  -- the call
  have e0 : ∃ s0, step N (.callW data n) s = some s0 ∧ s0.wpc = .load1 ∧ s0.wn = n ∧ s0.rset = false ∧
      s0.given = s.given ++ data.take n ∧ s0.put = s.put ∧ s0.rel = s.rel ∧ s0.rpc = s.rpc ∧
      s0.wset = s.wset ∧ s0.got = s.got ∧ s0.taken = s.taken := by
    refine ⟨_, if_pos ⟨h.wpc, hn⟩, rfl, rfl, h.rset, rfl, rfl, rfl, rfl, rfl, rfl, rfl⟩
  obtain ⟨s0, e0, a1, a2, a3, a4, a5, a6, a7, a8, a9, a10⟩ := e0
  have p0 := h.pos.step (by omega) e0
  have f0 := h.fifo.step (a := .callW data n) hN h.pos trivial e0
  have c0 := h.calls.step e0
  -- two loads
  have e1 : ∃ s1, wStep N s0 = some s1 ∧ s1.wpc = .load2 ∧ s1.wn = n ∧ s1.put = s.put ∧ WKeeps s0 s1 := by
    unfold wStep
    simp only [a1]
    exact ⟨_, rfl, rfl, a2, a5, ⟨rfl, rfl, rfl, rfl, rfl, rfl, rfl⟩⟩
  obtain ⟨s1, e1, b1, b2, b3, k1⟩ := e1
  have p1 := p0.wStep (by omega) e1
  have f1 := f0.wStep hN p0 (by intro _ hc; rw [a1] at hc; simp at hc) e1
  have c1 := c0.wStep e1
  have e2 : ∃ s2, wStep N s1 = some s2 ∧ s2.wpc = (if 0 < n then .put else .fstore) ∧ s2.wn = n ∧ s2.wi = 0 ∧
      s2.wres = false ∧ s2.wrel = s1.rel ∧ s2.put = s.put ∧ WKeeps s1 s2 := by
    unfold wStep
    simp only [b1]
    refine ⟨_, rfl, ?_, by simpa using b2, by simp, by simp, by simp, by simpa using b3, by constructor <;> simp⟩
    unfold wLoop
    simp only [b2]
    split <;> rfl
  obtain ⟨s2, e2, d1, d2, d3, d4, d5, d6, k2⟩ := e2
  have p2 := p1.wStep (by omega) e2
  have f2 := f1.wStep hN p1 (by intro _ hc; rw [b1] at hc; simp at hc) e2
  have c2 := c1.wStep e2
  have k02 := k1.trans k2
  have hrun : ∀ s', runW N (7 * n + 3) s2 = some s' → seqWrite N data n s = some s' := by
    intro s' hs'
    unfold seqWrite
    rw [e0]
    show runW N (7 * n + 4 + 1) s0 = some s'
    rw [runW, if_neg (by rw [a1]; simp), e1]
    show runW N (7 * n + 3 + 1) s1 = some s'
    rw [runW, if_neg (by rw [b1]; simp), e2]
    exact hs'
  have hfin : ∃ s', runW N (7 * n + 3) s2 = some s' ∧ Pos N s' ∧ Fifo N s' ∧ Calls s' ∧ s'.wpc = .idle ∧ WKeeps s2 s' := by
    cases n with
    | zero =>
      rw [if_neg (by omega)] at d1
      exact runW_end hN 1 s2 p2 f2 c2 d1 d4 (k02.rset.trans a3)
    | succ n =>
      rw [if_pos (by omega)] at d1
      refine runW_loop hN n _ s2 p2 f2 c2 d1 d4 (k02.rset.trans a3) (by omega) ?_ (by omega)
      rw [d5, k1.rel, a6, d6]
      omega
  obtain ⟨s', r1, r2, r3, r4, r5, r6⟩ := hfin
  have k := k02.trans r6
  have hput : s'.put = s.put ++ data.take n := by
    have g1 := r4.given
    have g2 := h.calls.given
    rw [r5, WPc.wrote, List.drop_take_self, List.append_nil] at g1
    rw [h.wpc, WPc.wrote, List.drop_take_self, List.append_nil] at g2
    rw [← g1, k.given, a4, g2]
  refine ⟨s', hrun s' r1, ⟨r2, r3, r4, r5, ?_, ?_, ?_⟩, ?_, ?_⟩
  · rw [k.rpc, a7]; exact h.rpc
  · rw [k.rset]; exact a3
  · rw [k.wset, a8]; exact h.wset
  · unfold queue
    rw [hput, k.got, a9, List.drop_append_of_le_length hq4]
  · rw [k.taken, a10]

theorem runR_end {N : Nat} (hN : 2 ≤ N) (k : Nat) (s : State) (hp : Pos N s) (hf : Fifo N s)
    (hc : Calls s) (hpc : s.rpc = .fstore) (hws : s.wset = false) :
    ∃ s', runR N (k + 2) s = some s' ∧ Pos N s' ∧ Fifo N s' ∧ Calls s' ∧ s'.rpc = .idle ∧ RKeeps s s' ∧
      s'.taken = s.taken ++ s.rdst.take s.rn := by
  have h1 : ∃ s1, rStep N s = some s1 ∧ RKeeps s s1 ∧ s1.rdst = s.rdst ∧ s1.rn = s.rn ∧
      (s1.rpc = .frelCas ∧ s1.taken = s.taken ∨ s1.rpc = .idle ∧ s1.taken = s.taken ++ s.rdst.take s.rn) := by
    unfold rStep
    simp only [hpc]
    refine ⟨_, rfl, ?_⟩
    split
    · exact ⟨⟨rfl, rfl, rfl, rfl⟩, rfl, rfl, Or.inl ⟨rfl, rfl⟩⟩
    · exact ⟨⟨rfl, rfl, rfl, rfl⟩, rfl, rfl, Or.inr ⟨rfl, rfl⟩⟩
  obtain ⟨s1, h1, hk1, hd1, hn1, hpc1⟩ := h1
  have hp1 := hp.rStep (by omega) h1
  have hf1 := hf.rStep hN hp (fun _ h => by rw [hpc] at h; simp at h) h1
  have hc1 := hc.rStep h1
  have hrun : runR N (k + 2) s = runR N (k + 1) s1 := by
    rw [runR, if_neg (by rw [hpc]; simp), h1]; rfl
  rcases hpc1 with ⟨hpc1, ht⟩ | ⟨hpc1, ht⟩
  · have h2 : rStep N s1 = some (rReturn s1) := by
      unfold rStep
      simp only [hpc1, hk1.wset, hws]
      simp
    refine ⟨rReturn s1, ?_, hp1.rStep (by omega) h2, hf1.rStep hN hp1 ?_ h2, hc1.rStep h2, rfl, ?_, ?_⟩
    · rw [hrun, runR, if_neg (by rw [hpc1]; simp), h2]
      show runR N k (rReturn s1) = _
      cases k <;> simp [runR, rReturn]
    · intro _ h; rw [hpc1] at h; simp at h
    · exact ⟨hk1.wpc, hk1.rset, hk1.wset, hk1.put⟩
    · rw [rReturn, ht, hd1, hn1]
  · refine ⟨s1, ?_, hp1, hf1, hc1, hpc1, hk1, ht⟩
    rw [hrun, runR, if_pos hpc1]

/-- With another published byte after this one, or at the end of the call, the next byte is
read without further ado. -/
theorem get_step {N : Nat} (hN : 2 ≤ N) {s : State} (hp : Pos N s) (hf : Fifo N s)
    (hpc : s.rpc = .get) (hdata : s.ri + 1 < s.rn → s.got.length + 1 < s.rpub) :
    ∃ s1, rStep N s = some s1 ∧ s1.rpc = (if s.ri + 1 < s.rn then .get else .fstore) ∧
      s1.rres = s.rres ∧ s1.rn = s.rn ∧ s1.ri = s.ri + 1 ∧ s1.rpub = s.rpub ∧
      s1.got.length = s.got.length + 1 ∧ s1.taken = s.taken ∧ RKeeps s s1 := by
  unfold rStep
  simp only [hpc]
  refine ⟨_, rfl, ?_, by simp, by simp, by simp, by simp, by simp, by simp, by constructor <;> simp⟩
  unfold rLoop
  simp only
  split
  · rename_i hlt
    rw [if_neg]
    rw [hp.rpos (by rw [hpc]; rfl), hp.rnext (by rw [hpc]; rfl), incr_mod (by omega)]
    intro hc
    have h0 := hdata hlt
    have h1 := hf.room
    have h2 := hp.rpub_le
    have h3 := hp.pub_le
    have h4 := hp.rel_le
    have := mod_inj (by omega) (by omega) hc
    omega
  · rfl

theorem runR_loop {N : Nat} (hN : 2 ≤ N) (m : Nat) : ∀ (fuel : Nat) (s : State), Pos N s → Fifo N s →
    Calls s → s.rpc = .get → s.rres = false → s.wset = false →
    s.rn - s.ri = m + 1 → s.got.length + (m + 1) ≤ s.rpub → m + 3 ≤ fuel →
    ∃ s' X, runR N fuel s = some s' ∧ Pos N s' ∧ Fifo N s' ∧ Calls s' ∧ s'.rpc = .idle ∧ RKeeps s s' ∧
      s'.taken = s.taken ++ X ∧ X.length = s.rn := by
  induction m with
  | zero =>
    intro fuel s hp hf hc hpc hres hws hm hroom hfuel
    obtain ⟨k, rfl⟩ : ∃ k, fuel = k + 3 := ⟨fuel - 3, by omega⟩
    obtain ⟨s1, h1, hpc1, hres1, hn1, _, _, _, ht1, hk1⟩ := get_step hN hp hf hpc (by omega)
    rw [if_neg (by omega)] at hpc1
    have hc1 := hc.rStep h1
    obtain ⟨s2, h2, h3, h4, h5, h6, h7, h8⟩ := runR_end hN k s1 (hp.rStep (by omega) h1)
      (hf.rStep hN hp (fun h => by rw [hres] at h; simp at h) h1) hc1 hpc1
      (hk1.wset.trans hws)
    refine ⟨s2, s1.rdst.take s1.rn, ?_, h3, h4, h5, h6, hk1.trans h7, ?_, ?_⟩
    · rw [runR, if_neg (by rw [hpc]; simp), h1]
      exact h2
    · rw [h8, ht1]
    · rw [List.length_take, ← hn1]
      have := hc1.rlen
      omega
  | succ m ih =>
    intro fuel s hp hf hc hpc hres hws hm hroom hfuel
    obtain ⟨k, rfl⟩ : ∃ k, fuel = k + 1 := ⟨fuel - 1, by omega⟩
    obtain ⟨s1, h1, hpc1, hres1, hn1, hi1, hw1, hl1, ht1, hk1⟩ := get_step hN hp hf hpc (by omega)
    rw [if_pos (by omega)] at hpc1
    obtain ⟨s2, X, h2, h3, h4, h5, h6, h7, h8, h9⟩ := ih k s1 (hp.rStep (by omega) h1)
      (hf.rStep hN hp (fun h => by rw [hres] at h; simp at h) h1) (hc.rStep h1) hpc1
      (hres1.trans hres) (hk1.wset.trans hws) (by omega) (by omega) (by omega)
    refine ⟨s2, X, ?_, h3, h4, h5, h6, hk1.trans h7, by rw [h8, ht1], by rw [h9, hn1]⟩
    rw [runR, if_neg (by rw [hpc]; simp), h1]
    exact h2

theorem seqRead_ok {N : Nat} (hN : 2 ≤ N) {s : State} (h : Quiet N s) {dst : List Byte} {n : Nat}
    (hn : n ≤ dst.length) (hdata : n ≤ (queue s).length) :
    ∃ s', seqRead N dst n s = some s' ∧ Quiet N s' ∧ queue s' = (queue s).drop n ∧
      s'.taken = s.taken ++ (queue s).take n := by
  obtain ⟨hq1, hq2, hq3, hq4⟩ := queue_length h
  have e0 : ∃ s0, step N (.callR dst n) s = some s0 ∧ s0.rpc = .load1 ∧ s0.rn = n ∧ RKeeps s s0 ∧
      s0.got = s.got ∧ s0.taken = s.taken ∧ s0.pub = s.pub ∧ s0.rdst = dst := by
    refine ⟨_, if_pos ⟨h.rpc, hn⟩, rfl, rfl, ⟨rfl, rfl, rfl, rfl⟩, rfl, rfl, rfl, rfl⟩
  obtain ⟨s0, e0, a1, a2, k0, a3, a4, a5, a6⟩ := e0
  have p0 := h.pos.step (by omega) e0
  have f0 := h.fifo.step (a := .callR dst n) hN h.pos trivial e0
  have c0 := h.calls.step e0
  have e1 : ∃ s1, rStep N s0 = some s1 ∧ s1.rpc = .load2 ∧ s1.rn = n ∧ s1.got = s.got ∧ s1.taken = s.taken ∧
      s1.pub = s.pub ∧ s1.rdst = dst ∧ RKeeps s0 s1 := by
    unfold rStep
    simp only [a1]
    exact ⟨_, rfl, rfl, a2, a3, a4, a5, a6, ⟨rfl, rfl, rfl, rfl⟩⟩
  obtain ⟨s1, e1, b1, b2, b3, b4, b5, b6, k1⟩ := e1
  have p1 := p0.rStep (by omega) e1
  have f1 := f0.rStep hN p0 (by intro _ hc; rw [a1] at hc; simp at hc) e1
  have c1 := c0.rStep e1
  have e2 : ∃ s2, rStep N s1 = some s2 ∧ s2.rpc = (if 0 < n then .get else .fstore) ∧ s2.rn = n ∧ s2.ri = 0 ∧
      s2.rres = false ∧ s2.rpub = s.pub ∧ s2.got = s.got ∧ s2.taken = s.taken ∧ s2.rdst = dst ∧ RKeeps s1 s2 := by
    unfold rStep
    simp only [b1]
    refine ⟨_, rfl, ?_, by simpa using b2, by simp, by simp, by simpa using b5, by simpa using b3,
      by simpa using b4, by simpa using b6, by constructor <;> simp⟩
    unfold rLoop
    simp only [b2]
    split
    · rw [if_neg]
      rw [p1.rpos (by rw [b1]; rfl), p1.next, b3, b5]
      intro hc
      have h1 := h.fifo.room
      have := mod_inj (by omega) (by omega) hc
      omega
    · rfl
  obtain ⟨s2, e2, d1, d2, d3, d4, d5, d6, d7, d8, k2⟩ := e2
  have p2 := p1.rStep (by omega) e2
  have f2 := f1.rStep hN p1 (by intro _ hc; rw [b1] at hc; simp at hc) e2
  have c2 := c1.rStep e2
  have k02 := (k0.trans k1).trans k2
  have hrun : ∀ s', runR N (7 * n + 3) s2 = some s' → seqRead N dst n s = some s' := by
    intro s' hs'
    unfold seqRead
    rw [e0]
    show runR N (7 * n + 4 + 1) s0 = some s'
    rw [runR, if_neg (by rw [a1]; simp), e1]
    show runR N (7 * n + 3 + 1) s1 = some s'
    rw [runR, if_neg (by rw [b1]; simp), e2]
    exact hs'
  have hfin : ∃ s' X, runR N (7 * n + 3) s2 = some s' ∧ Pos N s' ∧ Fifo N s' ∧ Calls s' ∧ s'.rpc = .idle ∧
      RKeeps s2 s' ∧ s'.taken = s2.taken ++ X ∧ X.length = n := by
    cases n with
    | zero =>
      rw [if_neg (by omega)] at d1
      obtain ⟨s', r1, r2, r3, r4, r5, r6, r7⟩ := runR_end hN 1 s2 p2 f2 c2 d1 (k02.wset.trans h.wset)
      exact ⟨s', _, r1, r2, r3, r4, r5, r6, r7, by rw [d2]; simp⟩
    | succ n =>
      rw [if_pos (by omega)] at d1
      obtain ⟨s', X, r1, r2, r3, r4, r5, r6, r7, r8⟩ := runR_loop hN n (7 * (n + 1) + 3) s2 p2 f2 c2 d1 d4
        (k02.wset.trans h.wset) (by omega) (by rw [d5, d6]; omega) (by omega)
      exact ⟨s', X, r1, r2, r3, r4, r5, r6, r7, by rw [r8, d2]⟩
  obtain ⟨s', X, r1, r2, r3, r4, r5, r6, r7, r8⟩ := hfin
  have k := k02.trans r6
  have g1 : s.got = s.taken := by
    have := h.calls.taken
    rwa [h.rpc, RPc.read, List.take_zero, List.append_nil] at this
  have g2 : s'.got = s'.taken := by
    have := r4.taken
    rwa [r5, RPc.read, List.take_zero, List.append_nil] at this
  rw [d7] at r7
  have g3 : s'.got = s.got ++ X := by rw [g2, r7, g1]
  have hX : X = (queue s).take n := by
    have h1 := r3.pre
    rw [g3, k.put] at h1
    obtain ⟨t, ht⟩ := h1
    unfold queue
    rw [← ht, List.append_assoc, List.drop_left, ← r8, List.take_left]
  refine ⟨s', hrun s' r1, ⟨r2, r3, r4, ?_, r5, ?_, ?_⟩, ?_, ?_⟩
  · rw [k.wpc]; exact h.wpc
  · rw [k.rset]; exact h.rset
  · rw [k.wset]; exact h.wset
  · unfold queue
    rw [k.put, g3, List.length_append, r8, List.drop_drop]
  · rw [r7, hX]

/-! When the call does not fit, the goroutine ends up waiting. -/

theorem run_succ_w {N : Nat} {k : Nat} {s s1 s' : State} (h : wStep N s = some s1)
    (h' : run N (List.replicate k .w) s1 = some s') : run N (List.replicate (k + 1) .w) s = some s' := by
  rw [List.replicate_succ, run, step, h]; exact h'

theorem run_succ_r {N : Nat} {k : Nat} {s s1 s' : State} (h : rStep N s = some s1)
    (h' : run N (List.replicate k .r) s1 = some s') : run N (List.replicate (k + 1) .r) s = some s' := by
  rw [List.replicate_succ, run, step, h]; exact h'

theorem full_wait {N : Nat} (hN : 2 ≤ N) {s : State} (hp : Pos N s) (hpc : s.wpc = .put)
    (hroom : s.put.length + 2 = s.wrel + N) (hrel : s.wrel = s.rel) (hrs : s.rset = false)
    (hws : s.wset = false) :
    ∃ s', run N (List.replicate 5 .w) s = some s' ∧ s'.wpc = .waitSend ∧ s'.closed = s.closed := by
  have e1 : incr N (incr N s.wpos) = s.wstart := by
    rw [hp.wpos (by rw [hpc]; rfl), hp.wstart (by rw [hpc]; rfl), incr_mod (by omega), incr_mod (by omega),
      hroom, Nat.add_mod_right]
  have e2 : s.start = s.wstart := by
    rw [hp.wstart (by rw [hpc]; rfl), hp.start, hrel]
  have h1 : ∃ s1, wStep N s = some s1 ∧ s1.wpc = .store ∧ s1.rset = false ∧ s1.wset = false ∧
      incr N s1.wpos = s1.start ∧ s1.closed = s.closed := by
    unfold wStep
    simp only [hpc]
    rw [if_pos e1]
    exact ⟨_, rfl, rfl, hrs, hws, e1.trans e2.symm, rfl⟩
  obtain ⟨s1, h1, a1, a2, a3, a4, a5⟩ := h1
  have h2 : ∃ s2, wStep N s1 = some s2 ∧ s2.wpc = .relCas ∧ s2.rset = false ∧ s2.wset = false ∧
      incr N s2.wpos = s2.start ∧ s2.closed = s.closed := by
    unfold wStep
    simp only [a1]
    exact ⟨_, rfl, rfl, a2, a3, a4, a5⟩
  obtain ⟨s2, h2, b1, b2, b3, b4, b5⟩ := h2
  have h3 : ∃ s3, wStep N s2 = some s3 ∧ s3.wpc = .reload ∧ s3.wset = false ∧
      incr N s3.wpos = s3.start ∧ s3.closed = s.closed := by
    unfold wStep
    simp only [b1, b2]
    exact ⟨_, rfl, rfl, b3, b4, b5⟩
  obtain ⟨s3, h3, c1, c2, c3, c4⟩ := h3
  have h4 : ∃ s4, wStep N s3 = some s4 ∧ s4.wpc = .waitCas ∧ s4.wset = false ∧ s4.closed = s.closed := by
    unfold wStep
    simp only [c1]
    rw [if_pos c3]
    exact ⟨_, rfl, rfl, c2, c4⟩
  obtain ⟨s4, h4, d1, d2, d3⟩ := h4
  have h5 : ∃ s5, wStep N s4 = some s5 ∧ s5.wpc = .waitSend ∧ s5.closed = s.closed := by
    unfold wStep
    simp only [d1, d2]
    exact ⟨_, rfl, rfl, d3⟩
  obtain ⟨s5, h5, f1, f2⟩ := h5
  exact ⟨s5, run_succ_w h1 (run_succ_w h2 (run_succ_w h3 (run_succ_w h4 (run_succ_w h5 rfl)))), f1, f2⟩

theorem put_loop_wait {N : Nat} (hN : 2 ≤ N) (m : Nat) : ∀ (s : State), Pos N s → Fifo N s → Calls s →
    s.wpc = .put → s.wres = false → s.rset = false → s.wset = false → s.wrel = s.rel →
    s.put.length + 2 + m = s.wrel + N → m < s.wn - s.wi →
    ∃ k s', run N (List.replicate k .w) s = some s' ∧ s'.wpc = .waitSend ∧ s'.closed = s.closed := by
  induction m with
  | zero =>
    intro s hp hf hc hpc hres hrs hws hrel hroom hm
    exact ⟨5, full_wait hN hp hpc hroom hrel hrs hws⟩
  | succ m ih =>
    intro s hp hf hc hpc hres hrs hws hrel hroom hm
    obtain ⟨s1, h1, hpc1, hres1, hn1, hi1, hw1, hl1, hk1⟩ := put_step hN hp hf hpc (by omega)
    rw [if_pos (by omega)] at hpc1
    have hcl : s1.closed = s.closed := (wStep_rCost h1).2
    obtain ⟨k, s', h2, h3, h4⟩ := ih s1 (hp.wStep (by omega) h1)
      (hf.wStep hN hp (fun h => by rw [hres] at h; simp at h) h1) (hc.wStep h1) hpc1
      (hres1.trans hres) (hk1.rset.trans hrs) (hk1.wset.trans hws) (by rw [hw1, hrel, hk1.rel]) (by omega) (by omega)
    exact ⟨k + 1, s', run_succ_w h1 h2, h3, h4.trans hcl⟩

theorem seqWrite_waits {N : Nat} (hN : 2 ≤ N) {s : State} (h : Quiet N s) {data : List Byte} {n : Nat}
    (hn : n ≤ data.length) (hroom : N < (queue s).length + n + 2) :
    ∃ k s', run N (.callW data n :: List.replicate k .w) s = some s' ∧ s'.wpc = .waitSend ∧
      s'.closed = s.closed := by
  obtain ⟨hq1, hq2, hq3, hq4⟩ := queue_length h
  have e0 : ∃ s0, step N (.callW data n) s = some s0 ∧ s0.wpc = .load1 ∧ s0.wn = n ∧ s0.rset = false ∧
      s0.wset = false ∧ s0.put = s.put ∧ s0.rel = s.rel ∧ s0.closed = s.closed := by
    refine ⟨_, if_pos ⟨h.wpc, hn⟩, rfl, rfl, h.rset, h.wset, rfl, rfl, rfl⟩
  obtain ⟨s0, e0, a1, a2, a3, a3', a5, a6, a7⟩ := e0
  have p0 := h.pos.step (by omega) e0
  have f0 := h.fifo.step (a := .callW data n) hN h.pos trivial e0
  have c0 := h.calls.step e0
  have hfit := f0.widle (by rw [a1]; rfl)
  rw [a5, a6] at hfit
  have e1 : ∃ s1, wStep N s0 = some s1 ∧ s1.wpc = .load2 ∧ s1.wn = n ∧ s1.put = s.put ∧ s1.closed = s.closed ∧ WKeeps s0 s1 := by
    unfold wStep
    simp only [a1]
    exact ⟨_, rfl, rfl, a2, a5, a7, ⟨rfl, rfl, rfl, rfl, rfl, rfl, rfl⟩⟩
  obtain ⟨s1, e1, b1, b2, b3, b4, k1⟩ := e1
  have p1 := p0.wStep (by omega) e1
  have f1 := f0.wStep hN p0 (by intro _ hc; rw [a1] at hc; simp at hc) e1
  have c1 := c0.wStep e1
  have e2 : ∃ s2, wStep N s1 = some s2 ∧ s2.wpc = (if 0 < n then .put else .fstore) ∧ s2.wn = n ∧ s2.wi = 0 ∧
      s2.wres = false ∧ s2.wrel = s1.rel ∧ s2.put = s.put ∧ s2.closed = s.closed ∧ WKeeps s1 s2 := by
    unfold wStep
    simp only [b1]
    refine ⟨_, rfl, ?_, by simpa using b2, by simp, by simp, by simp, by simpa using b3, by simpa using b4, by constructor <;> simp⟩
    unfold wLoop
    simp only [b2]
    split <;> rfl
  obtain ⟨s2, e2, d1, d2, d3, d4, d5, d6, d7, k2⟩ := e2
  have p2 := p1.wStep (by omega) e2
  have f2 := f1.wStep hN p1 (by intro _ hc; rw [b1] at hc; simp at hc) e2
  have c2 := c1.wStep e2
  have k02 := k1.trans k2
  rw [if_pos (by omega)] at d1
  have hw : s2.wrel = s.rel := by rw [d5, k1.rel, a6]
  obtain ⟨k, s', r1, r2, r3⟩ := put_loop_wait hN (s.rel + N - (s.put.length + 2)) s2 p2 f2 c2 d1 d4
    (k02.rset.trans a3) (k02.wset.trans a3') (by rw [hw, k02.rel, a6]) (by rw [d6, hw]; omega) (by omega)
  refine ⟨k + 2, s', ?_, r2, r3.trans d7⟩
  rw [run, e0]
  exact run_succ_w e1 (run_succ_w e2 r1)

theorem empty_wait {N : Nat} {s : State} (hpc : s.rpc = .store) (hnext : s.rpos = s.next)
    (hrs : s.rset = false) (hws : s.wset = false) :
    ∃ k s', run N (List.replicate k .r) s = some s' ∧ s'.rpc = .waitSend ∧ s'.closed = s.closed := by
  have hre : ∀ s1 : State, s1.rpc = .reload → s1.rpos = s1.next → s1.rset = false →
      ∃ s', run N (List.replicate 2 .r) s1 = some s' ∧ s'.rpc = .waitSend ∧ s'.closed = s1.closed := by
    intro s1 h1 h2 h3
    have h4 : ∃ s2, rStep N s1 = some s2 ∧ s2.rpc = .waitCas ∧ s2.rset = false ∧ s2.closed = s1.closed := by
      unfold rStep
      simp only [h1]
      rw [if_pos h2]
      exact ⟨_, rfl, rfl, h3, rfl⟩
    obtain ⟨s2, h4, b1, b2, b3⟩ := h4
    have h5 : ∃ s3, rStep N s2 = some s3 ∧ s3.rpc = .waitSend ∧ s3.closed = s1.closed := by
      unfold rStep
      simp only [b1, b2]
      exact ⟨_, rfl, rfl, b3⟩
    obtain ⟨s3, h5, c1, c2⟩ := h5
    exact ⟨s3, run_succ_r h4 (run_succ_r h5 rfl), c1, c2⟩
  have h1 : ∃ s1, rStep N s = some s1 ∧ (s1.rpc = .relCas ∨ s1.rpc = .reload) ∧ s1.rset = false ∧ s1.wset = false ∧
      s1.rpos = s1.next ∧ s1.closed = s.closed := by
    unfold rStep
    simp only [hpc]
    refine ⟨_, rfl, ?_⟩
    split
    · exact ⟨Or.inl rfl, hrs, hws, hnext, rfl⟩
    · exact ⟨Or.inr rfl, hrs, hws, hnext, rfl⟩
  obtain ⟨s1, h1, a1, a2, a3, a4, a5⟩ := h1
  rcases a1 with a1 | a1
  · have h2 : ∃ s2, rStep N s1 = some s2 ∧ s2.rpc = .reload ∧ s2.rset = false ∧
        s2.rpos = s2.next ∧ s2.closed = s.closed := by
      unfold rStep
      simp only [a1, a3]
      exact ⟨_, rfl, rfl, a2, a4, a5⟩
    obtain ⟨s2, h2, b1, b2, b3, b4⟩ := h2
    obtain ⟨s', h3, h4, h5⟩ := hre s2 b1 b3 b2
    exact ⟨4, s', run_succ_r h1 (run_succ_r h2 h3), h4, h5.trans b4⟩
  · obtain ⟨s', h3, h4, h5⟩ := hre s1 a1 a4 a2
    exact ⟨3, s', run_succ_r h1 h3, h4, h5.trans a5⟩

theorem get_loop_wait {N : Nat} (hN : 2 ≤ N) (m : Nat) : ∀ (s : State), Pos N s → Fifo N s → Calls s →
    s.rpc = .get → s.rres = false → s.rset = false → s.wset = false → s.rpub = s.pub →
    s.got.length + (m + 1) = s.rpub → m + 1 < s.rn - s.ri →
    ∃ k s', run N (List.replicate k .r) s = some s' ∧ s'.rpc = .waitSend ∧ s'.closed = s.closed := by
  induction m with
  | zero =>
    intro s hp hf hc hpc hres hrs hws hpub hroom hm
    have h1 : ∃ s1, rStep N s = some s1 ∧ s1.rpc = .store ∧ s1.rset = false ∧ s1.wset = false ∧
        s1.rpos = s1.next ∧ s1.closed = s.closed := by
      have e : incr N s.rpos = s.rnext := by
        rw [hp.rpos (by rw [hpc]; rfl), hp.rnext (by rw [hpc]; rfl), incr_mod (by omega), ← hroom]
      have e2 : s.rnext = s.next := by
        rw [hp.rnext (by rw [hpc]; rfl), hp.next, hpub]
      unfold rStep
      simp only [hpc]
      refine ⟨_, rfl, ?_, by simpa using hrs, by simpa using hws, by simpa using e.trans e2, by simp⟩
      unfold rLoop
      simp only
      rw [if_pos (by omega), if_pos e]
    obtain ⟨s1, h1, a1, a2, a3, a4, a5⟩ := h1
    obtain ⟨k, s', h2, h3, h4⟩ := empty_wait (N := N) a1 a4 a2 a3
    exact ⟨k + 1, s', run_succ_r h1 h2, h3, h4.trans a5⟩
  | succ m ih =>
    intro s hp hf hc hpc hres hrs hws hpub hroom hm
    obtain ⟨s1, h1, hpc1, hres1, hn1, hi1, hw1, hl1, ht1, hk1⟩ := get_step hN hp hf hpc (by omega)
    rw [if_pos (by omega)] at hpc1
    have hcl : s1.closed = s.closed := (rStep_wCost h1).2
    have hpb : s1.pub = s.pub := by
      unfold rStep at h1
      simp only [hpc, Option.some.injEq] at h1
      subst h1
      simp
    obtain ⟨k, s', h2, h3, h4⟩ := ih s1 (hp.rStep (by omega) h1)
      (hf.rStep hN hp (fun h => by rw [hres] at h; simp at h) h1) (hc.rStep h1) hpc1
      (hres1.trans hres) (hk1.rset.trans hrs) (hk1.wset.trans hws) (by rw [hw1, hpub, hpb]) (by omega) (by omega)
    exact ⟨k + 1, s', run_succ_r h1 h2, h3, h4.trans hcl⟩

theorem seqRead_waits {N : Nat} (hN : 2 ≤ N) {s : State} (h : Quiet N s) {dst : List Byte} {n : Nat}
    (hn : n ≤ dst.length) (hdata : (queue s).length < n) :
    ∃ k s', run N (.callR dst n :: List.replicate k .r) s = some s' ∧ s'.rpc = .waitSend ∧
      s'.closed = s.closed := by
  obtain ⟨hq1, hq2, hq3, hq4⟩ := queue_length h
  have e0 : ∃ s0, step N (.callR dst n) s = some s0 ∧ s0.rpc = .load1 ∧ s0.rn = n ∧ RKeeps s s0 ∧
      s0.got = s.got ∧ s0.closed = s.closed ∧ s0.pub = s.pub ∧ s0.rdst = dst := by
    refine ⟨_, if_pos ⟨h.rpc, hn⟩, rfl, rfl, ⟨rfl, rfl, rfl, rfl⟩, rfl, rfl, rfl, rfl⟩
  obtain ⟨s0, e0, a1, a2, k0, a3, a4, a5, a6⟩ := e0
  have p0 := h.pos.step (by omega) e0
  have f0 := h.fifo.step (a := .callR dst n) hN h.pos trivial e0
  have c0 := h.calls.step e0
  have e1 : ∃ s1, rStep N s0 = some s1 ∧ s1.rpc = .load2 ∧ s1.rn = n ∧ s1.got = s.got ∧ s1.closed = s.closed ∧
      s1.pub = s.pub ∧ RKeeps s0 s1 := by
    unfold rStep
    simp only [a1]
    exact ⟨_, rfl, rfl, a2, a3, a4, a5, ⟨rfl, rfl, rfl, rfl⟩⟩
  obtain ⟨s1, e1, b1, b2, b3, b4, b5, k1⟩ := e1
  have p1 := p0.rStep (by omega) e1
  have f1 := f0.rStep hN p0 (by intro _ hc; rw [a1] at hc; simp at hc) e1
  have c1 := c0.rStep e1
  have e2 : ∃ s2, rStep N s1 = some s2 ∧ s2.rpc = (if s.got.length = s.pub then .store else .get) ∧ s2.rn = n ∧ s2.ri = 0 ∧
      s2.rres = false ∧ s2.rpub = s.pub ∧ s2.got = s.got ∧ s2.closed = s.closed ∧ s2.pub = s.pub ∧
      s2.rpos = s1.rpos ∧ s2.next = s1.next ∧ RKeeps s1 s2 := by
    unfold rStep
    simp only [b1]
    refine ⟨_, rfl, ?_, by simpa using b2, by simp, by simp, by simpa using b5, by simpa using b3,
      by simpa using b4, by simpa using b5, by simp, by simp, by constructor <;> simp⟩
    unfold rLoop
    simp only [b2]
    rw [if_pos (by omega)]
    have hr : (s1.rpos = s1.next) ↔ s.got.length = s.pub := by
      rw [p1.rpos (by rw [b1]; rfl), p1.next, b3, b5]
      constructor
      · intro hc
        have h1 := h.fifo.room
        exact mod_inj (by omega) (by omega) hc
      · intro hc; rw [hc]
    simp only [hr]
    split <;> rfl
  obtain ⟨s2, e2, d1, d2, d3, d4, d5, d6, d7, d8, d9, d10, k2⟩ := e2
  have p2 := p1.rStep (by omega) e2
  have f2 := f1.rStep hN p1 (by intro _ hc; rw [b1] at hc; simp at hc) e2
  have c2 := c1.rStep e2
  have k02 := (k0.trans k1).trans k2
  have hfin : ∃ k s', run N (List.replicate k .r) s2 = some s' ∧ s'.rpc = .waitSend ∧ s'.closed = s2.closed := by
    by_cases hz : s.got.length = s.pub
    · rw [if_pos hz] at d1
      refine empty_wait d1 ?_ (k02.rset.trans h.rset) (k02.wset.trans h.wset)
      rw [p2.rpos (by rw [d1]; rfl), p2.next, d6, d8, hz]
    · rw [if_neg hz] at d1
      refine get_loop_wait hN (s.pub - s.got.length - 1) s2 p2 f2 c2 d1 d4 (k02.rset.trans h.rset)
        (k02.wset.trans h.wset) (by rw [d5, d8]) (by rw [d5, d6]; omega) (by omega)
  obtain ⟨k, s', r1, r2, r3⟩ := hfin
  refine ⟨k + 2, s', ?_, r2, r3.trans d7⟩
  rw [run, e0]
  exact run_succ_r e1 (run_succ_r e2 r1)

end Kafka.Ring
