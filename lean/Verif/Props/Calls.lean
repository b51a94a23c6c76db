import Verif.Props.Arrives
/-!
Property C65: a call to a broker that answers returns.
-/
set_option linter.unusedSimpArgs false

namespace Kafka.Props

open Conn

section
variable {P : Params} {st : Nat → Conn.State} {act : Nat → Option Act}

/-- A call that has written has been entered in the map. -/
theorem registered_of_sent {s : Conn.State} (h : Conn.Reach P Conn.Any s) {c : Nat} (hs : (s.calls c).sent ≠ []) :
    (s.calls c).pc.registered = true := by
  cases hb : (s.calls c).pc.before with
  | true => exact absurd (h.wires.before c hb).2 hs
  | false => cases hp : (s.calls c).pc <;> rw [hp] at hb <;> first | rfl | cases hb

/-- The error of a call that could not write is the one the network reported. -/
theorem flushErr_werr {s : Conn.State} (h : Conn.Reach P Conn.Any s) {c : Nat} {e : WErr}
    (hp : (s.calls c).pc = .done (.flushErr e)) : s.werr = some e := by
  have key : ∀ c e, ((s.calls c).pc = .wunlock (some e) ∨ (s.calls c).pc = .done (.flushErr e)) → s.werr = some e := by
    refine h.inv (I := fun s => ∀ c e,
      ((s.calls c).pc = .wunlock (some e) ∨ (s.calls c).pc = .done (.flushErr e)) → s.werr = some e)
      (by simp [Conn.init]) ?_
    intro s s' a hr hi hok ht
    have herr := hr.wires.err
    clear hok
    cases ht <;> simp only [State.set] at hi herr ⊢ <;> grind [CPc.isWriting]
  exact key c e (.inr hp)

/-- A call in the map stays there, with its id, until it returns. -/
theorem Steady.stays (h : Steady P st act) {n c : Nat} (hp : ((st n).calls c).pc.registered = true)
    (hno : ¬∃ m o, n ≤ m ∧ ((st m).calls c).pc = .done o) :
    ∀ m, n ≤ m → ((st m).calls c).pc.registered = true ∧ ((st m).calls c).id = ((st n).calls c).id := by
  refine h.exec.keep (I := fun s => (s.calls c).pc.registered = true ∧ (s.calls c).id = ((st n).calls c).id) ?_ ⟨hp, rfl⟩
  intro m hm a _ ht ⟨h1, h2⟩
  have hno' : ∀ o, ((st (m + 1)).calls c).pc ≠ .done o := fun o hx => hno ⟨m + 1, o, by omega, hx⟩
  generalize st (m + 1) = s' at ht hno'
  cases ht <;> simp only [State.set] at hno' ⊢ <;> grind [CPc.registered]

/-- When the frame with the id of a call in the map has been read, the call returns. -/
theorem Steady.answersAny (hP : 4 ≤ P.buf) (h : Steady P st act) (ha : Takes st act) {n c : Nat} {d : Decoder}
    (hp : ((st n).calls c).pc.registered = true) (hm : (st n).mpc = .rlock ((st n).calls c).id d) :
    ∃ m o, n ≤ m ∧ ((st m).calls c).pc = .done o := by
  refine Classical.byContradiction fun hno => ?_
  have hw := h.stays hp hno
  have hch : ∀ m, n ≤ m → ((st m).calls c).chan = none := fun m hm => by
    refine Classical.byContradiction fun hx => ?_
    obtain ⟨m', h1, h2⟩ := C61_proceeds hP h.exec h.fair h.crashed ha (n := m) (c := c) (fun hy => by
      have := (hw m hm).1; rw [hy] at this; cases this)
    rcases h2 with h2 | ⟨o, h2⟩
    · have h3 := h.exec.keep (I := fun s => (s.calls c).chan ≠ none) (n := m) (fun j hj a _ ht hi => by
        have hno' : ∀ o, ((st (j + 1)).calls c).pc ≠ .done o := fun o hx => hno ⟨j + 1, o, by omega, hx⟩
        have hrg := (hw j (by omega)).1
        generalize st (j + 1) = s' at ht hno'
        cases ht <;> simp only [State.set] at hno' ⊢ <;> grind [CPc.registered]) hx m' h1
      cases hd : ((st m').calls c).chan with
      | none => exact h3 hd
      | some d =>
        obtain ⟨m'', h4, h5⟩ := C61_takes h.exec h.fair h.crashed h2 hd
        exact hno ⟨m'', _, by omega, h5⟩
    · exact hno ⟨m', o, by omega, h2⟩
  have htk : ∀ m, n ≤ m → (st m).mpc.taken ≠ some c := fun m hm hx => by
    obtain ⟨m', d, h1, h2⟩ := h.fair.sends hP h.exec h.crashed hx
    rw [hch m' (by omega)] at h2
    cases h2
  have hreg : ∀ m, n ≤ m → (st m).requests ((st n).calls c).id = some c := fun m hm => by
    have hr := h.exec.reach m
    have hpm := hw m hm
    rcases h.apart.kept h.exec m c hpm.1 (fun o ho => hno ⟨m, o, hm, ho⟩) with h1 | h1 | h1
    · rw [← hpm.2]; exact h1
    · exact absurd h1 (htk m hm)
    · rcases hr.decoded c h1 with h2 | h2 | h2
      · exact absurd h2 (htk m hm)
      · exact absurd (hch m hm) h2
      · cases hx : ((st m).calls c).pc <;> rw [hx] at h2 <;> first | (cases h2; done) | exact absurd ⟨m, _, hm, hx⟩ hno
  generalize hid : ((st n).calls c).id = id at *
  obtain ⟨m1, hm1, hp1⟩ := h.fair.move hP h.exec (.rlock id d) (fun s => s.mpc = .lookup id d) (by simp)
    (fun hI k => by
      obtain ⟨m, h1, h2⟩ := h.fair.freeR hP h.exec h.crashed (max n k)
      refine ⟨m, by omega, by omega, ?_⟩
      rw [step_message (h.crashed m)]
      simp [messageStep, hI m (by omega), h2])
    (fun m _ ht hi => by generalize st (m + 1) = s' at ht; cases ht <;> simp_all) hm
  obtain ⟨m2, hm2, c2, hp2⟩ := h.fair.moveReady hP h.exec h.crashed (.lookup id d) (fun s => ∃ c, s.mpc = .delete id d c)
    (by simp) (fun s _ hi => by simp [messageStep, hi])
    (fun m _ ht hi => by generalize st (m + 1) = s' at ht; cases ht <;> simp_all) hp1
  have hc2 := (h.exec.reach m2).tokens.looked id d c2 hp2
  rw [hreg m2 (by omega)] at hc2
  subst hc2
  obtain ⟨m3, hm3, hp3⟩ := h.fair.moveReady hP h.exec h.crashed (.delete id d (some c)) (fun s => s.mpc = .runlock d (some c))
    (by simp) (fun s _ hi => by simp [messageStep, hi])
    (fun m _ ht hi => by generalize st (m + 1) = s' at ht; cases ht <;> simp_all) hp2
  exact htk m3 (by omega) (by rw [hp3]; rfl)

/-- When `messageLoop` has read a frame with the id of a call in the map, the call returns. -/
theorem Steady.readAny (hN : 2 ≤ P.ring) (hP : 4 ≤ P.buf) (h : Steady P st act) (ha : Takes st act) {n m c : Nat}
    (hpc : ((st n).calls c).pc.registered = true)
    {fs : List (List Byte)} {p U : List Byte} (hpar : Parsed (fs ++ [p]) U) (hU : U <+: (st m).received)
    (hid : Wire.int32 ((st n).calls c).id <+: p) (hlt : (st n).frames.length ≤ fs.length) (hnm : n ≤ m)
    (hm : fs.length < (st m).frames.length) : ∃ m o, n ≤ m ∧ ((st m).calls c).pc = .done o := by
  refine Classical.byContradiction fun hno => ?_
  have hw := h.stays hpc hno
  obtain ⟨k, hk, hkm, hk1, hk2⟩ : ∃ k, n ≤ k ∧ k < m ∧ (st k).frames.length ≤ fs.length ∧
      fs.length < (st (k + 1)).frames.length := by
    refine Classical.byContradiction fun hx => ?_
    have : ∀ j, n ≤ j → j ≤ m → (st j).frames.length ≤ fs.length := by
      intro j hj
      induction hj with
      | refl => exact fun _ => hlt
      | @step j hj ih => exact fun hjm => Nat.le_of_not_lt fun hy => hx ⟨j, hj, hjm, ih (by omega), hy⟩
    exact absurd (this m hnm (Nat.le_refl m)) (by omega)
  have hg := h.good hN hP (k + 1)
  have hgk := h.good hN hP k
  have hUk : (st (k + 1)).received <+: (st m).received :=
    h.exec.keep (I := fun s => (st (k + 1)).received <+: s.received) (n := k + 1) (fun m _ a _ ht hi => hi.trans ht.received)
      (List.prefix_refl _) m (by omega)
  have hwk' := hw (k + 1) (by omega)
  rcases h.exec.trans k with ⟨_, h2⟩ | ⟨a, _, ht⟩
  · rw [h2] at hk2; omega
  obtain ⟨f, hf, ho, hh⟩ := ht.newFrame hgk.reach.frames (h.crashed (k + 1)) (by omega)
  have hfp : f = p := by
    have hpre : (st (k + 1)).ring.taken <+: (st m).received :=
      ((by rw [hg.calls.taken]; exact List.prefix_append _ _ : (st (k + 1)).ring.taken <+: (st (k + 1)).ring.got).trans
        hg.got_pre).trans hUk
    have hlen : (st k).frames.length = fs.length := by rw [hf, List.length_append] at hk2; simp at hk2; omega
    have h5 := ((hg.stream.out ho).2.det hpar hpre hU (by rw [hf, List.length_append, List.length_append]; simp; omega)).1
    rw [hf] at h5
    simpa using (List.append_inj h5 (by omega)).2
  subst hfp
  rcases hh with hh | ⟨id, d, hm, hpre⟩
  · have := hid.length_le
    rw [int32_len] at this
    omega
  · have he : ((st n).calls c).id = id := by
      rw [List.prefix_iff_eq_take, int32_len] at hid hpre
      exact int32_inj (hid.trans hpre.symm)
    obtain ⟨m', o, h4, h5⟩ := h.answersAny (n := k + 1) (d := d) hP ha hwk'.1 (by rw [hwk'.2, he, hm])
    exact hno ⟨m', o, by omega, h5⟩

/-! ## C65: a call to a broker that answers returns -/

/-- After the moment `n`, a frame with the id of the call `c` is received. -/
def IsAnswered (st : Nat → Conn.State) (n c : Nat) : Prop :=
  ∃ m, n ≤ m ∧ ∃ p ∈ (splitStream (st m).received).drop (splitStream (st n).received).length,
    Wire.int32 ((st n).calls c).id <+: p

/-- The call has returned: with what a frame with its id brought, or with the error the network reported when it wrote. -/
def Returned (P : Params) (s : Conn.State) (c : Nat) : Prop :=
  (∃ d, (s.calls c).pc = .done (.reply d) ∧
    ∃ f ∈ splitStream s.received, Wire.int32 (s.calls c).id <+: f ∧ Given P.buf f d) ∨
  ∃ e, (s.calls c).pc = .done (.flushErr e) ∧ s.werr = some e

/-- The full claim: in an infinite execution in which no goroutine is passed over for ever and none panics, nobody closes
the connection and no two calls outstanding have the same id: when a call has begun to write its request, and after that a frame with
its id is received, and the network does not refuse to take bytes for ever, then the call returns. -/
def C65_statement (P : Params) (at' : (Nat → Conn.State) → (Nat → Option Act) → Nat → Prop) : Prop :=
  ∀ st act, Exec P st act → Fair P st act → (∀ m, (st m).crashed = false) → (∀ m k, (st m).closers k = .absent) →
    Apart P st → Takes st act →
    ∀ n c, at' st act n → ((st n).calls c).sent ≠ [] → IsAnswered st n c → ∃ m, n ≤ m ∧ Returned P (st m) c

/-- In every such execution in the schedules of C25 (`Steady`) the call returns; or else it waits for ever for a reply that has been received, because
`messageLoop` waits in `ReadN` for ever, and either the reply has been handed over to it and no two bytes are received
together any more, or `readLoop` waits for `messageLoop` for ever too. -/
theorem C65_returns (hN : 2 ≤ P.ring) (hP : 4 ≤ P.buf) (h : Steady P st act) (ha : Takes st act) {n c : Nat}
    (hs : ((st n).calls c).sent ≠ []) (hans : IsAnswered st n c) :
    (∃ m, n ≤ m ∧ Returned P (st m) c) ∨
    ∃ k p, n ≤ k ∧ Wire.int32 ((st n).calls c).id <+: p ∧ (∀ m, k ≤ m → ((st m).calls c).pc = .recv ∧ ReaderWaits (st m)) ∧
      ((∀ m, k ≤ m → p ∈ visible (st m) ∧ ∀ data, act m = some (.read data) → data.length ≤ 1) ∨
        ∀ m, k ≤ m → p ∈ pending (st m) ∧ WriterWaits P (st m)) := by
  by_cases hx : ∃ m o, n ≤ m ∧ ((st m).calls c).pc = .done o
  · obtain ⟨m, o, h1, h2⟩ := hx
    refine .inl ⟨m, h1, ?_⟩
    cases o with
    | reply d => exact .inl ⟨d, h2, C54_partial hN hP (st m) (h.reach m) c d h2⟩
    | flushErr e => exact .inr ⟨e, h2, flushErr_werr (h.exec.reach m) h2⟩
  refine .inr ?_
  have hreg := registered_of_sent (h.exec.reach n) hs
  have hw := h.stays hreg hx
  obtain ⟨m, hm, p, hp, hid⟩ := hans
  obtain ⟨i, hi, hp⟩ := List.getElem_of_mem hp
  rw [List.length_drop] at hi
  rw [List.getElem_drop] at hp
  obtain ⟨t, h1, h2⟩ := Parsed.of_split (st m).received
  obtain ⟨U, h3, h4⟩ := h1.take ((splitStream (st n).received).length + i + 1)
  rw [List.take_succ_eq_append_getElem (by omega), hp] at h3
  generalize hfs : (splitStream (st m).received).take ((splitStream (st n).received).length + i) = fs at h3
  have hlen : fs.length = (splitStream (st n).received).length + i := by rw [← hfs, List.length_take]; omega
  have hlt : (st n).frames.length ≤ fs.length := by
    have := (C37_partial hN hP (st n) (h.reach n)).length_le
    omega
  obtain ⟨m', hm', hp'⟩ := C61_proceeds hP h.exec h.fair h.crashed ha (n := m) (c := c) (fun hy => by
      have := (hw m hm).1; rw [hy] at this; cases this)
  have hpc : ((st m').calls c).pc = .recv := hp'.resolve_right fun ⟨o, ho⟩ => hx ⟨m', o, by omega, ho⟩
  have hU := h.exec.keep (I := fun s => U <+: s.received) (n := m) (fun m _ a _ ht hi => hi.trans ht.received) (h4.trans h2) m' hm'
  have hpend : p ∈ pending (st m') := parsed_mem h3 hU (Nat.le_of_not_lt fun hlt' =>
    hx (h.readAny hN hP ha hreg h3 hU hid hlt (by omega) hlt'))
  rcases C51_received hN hP h hpc hpend (by rw [(hw m' (by omega)).2]; exact hid) with ⟨k, d, h5, h6, _⟩ | ⟨k, h5, h6⟩
  · exact absurd ⟨k, _, by omega, h6⟩ hx
  · exact ⟨k, p, by omega, hid, h6⟩

/-- So a call to a broker that answers returns, in the schedules of C25, if, whenever `messageLoop` waits while a call does,
two bytes or more are received together later.  Missing for the full claim: when they are not, and the other schedules. -/
theorem C65_partial (hN : 2 ≤ P.ring) (hP : 4 ≤ P.buf) : C65_statement P (fun st act n => Steady P st act ∧
    ∀ k c, n ≤ k → (st k).ring.rpc = .waitSend → ((st k).calls c).pc = .recv →
      ∃ m data, k ≤ m ∧ act m = some (.read data) ∧ 2 ≤ data.length) := by
  intro st act _ _ _ _ _ ha n c ⟨h, hat⟩ hs hans
  rcases C65_returns hN hP h ha hs hans with hr | ⟨k, p, hk, _, h1, h2⟩
  · exact hr
  · obtain ⟨m, data, h3, h4, h5⟩ := hat k c hk (h1 k (Nat.le_refl k)).2.1 (h1 k (Nat.le_refl k)).1
    rcases h2 with h2 | h2
    · exact absurd ((h2 m h3).2 data h4) (by omega)
    · have h6 := (h2 m h3).2.1
      have ht := step_trans (h.exec.some m _ h4)
      generalize st (m + 1) = s' at ht
      cases ht with
      | read _ r _ _ _ hr => have := (ring_callW hr).1; rw [h6] at this; cases this

end

/-! ## There are such executions -/

/-- Nothing is written any more when the schedule has ended. -/
theorem takes_of_run {P : Params} {st : Nat → Conn.State} {act : Nat → Option Act} (h : Exec P st act) {L : Nat}
    (hend : ∀ m, L ≤ m → ∀ c rest, ((st m).calls c).pc ≠ .writing rest) : Takes st act := by
  intro n c rest hp _
  refine Classical.byContradiction fun hno => ?_
  have hI := h.keep (I := fun s => (s.calls c).pc = .writing rest) (n := n) (fun m hm a ha ht hi => by
    rw [ht.pc (Bool.eq_false_iff.2 fun hb => hno ⟨m, a, hm, ha, hb⟩) (by simp [hi])]; exact hi) hp
    (max n L) (Nat.le_max_left _ _)
  exact hend _ (Nat.le_max_right _ _) c rest hI

/-- A call that has been made, and has sent its request, checked by running the schedule. -/
def sentAll (s : Conn.State) : Bool :=
  ((s.calls 0).pc matches .recv) && decide ((s.calls 0).id = 1) && decide ((s.calls 0).sent ≠ []) && decide (s.received = [])

theorem answered_of {st : Nat → Conn.State} {n m : Nat} (hnm : n ≤ m) (h : sentAll (st n) = true)
    (hr : (st m).received = [0, 0, 0, 4, 0, 0, 0, 1]) : ((st n).calls 0).sent ≠ [] ∧ IsAnswered st n 0 := by
  simp only [sentAll, Bool.and_eq_true, decide_eq_true_eq] at h
  obtain ⟨⟨⟨_, g2⟩, g3⟩, g4⟩ := h
  refine ⟨g3, m, hnm, [0, 0, 0, 1], ?_, ?_⟩
  · rw [hr, g4]
    have e : splitStream [0, 0, 0, 4, 0, 0, 0, 1] = [0, 0, 0, 1] :: splitStream [] :=
      splitStream_frame 4 [0, 0, 0, 1] [] (by decide)
    have e0 : splitStream [] = [] := by rw [splitStream.eq_def]
    rw [e, e0]
    simp
  · rw [g2, wire_int32]
    exact List.prefix_rfl

/-- Non-trivial instance of `C65_returns` and `C65_partial`: a call sends its request, the peer answers. -/
theorem calls_example : ∃ st act, Steady small st act ∧ Takes st act ∧ ∃ n, ((st n).calls 0).sent ≠ [] ∧
    (st n).received = [] ∧ IsAnswered st n 0 ∧
    ∀ k c, n ≤ k → (st k).ring.rpc = .waitSend → ((st k).calls c).pc = .recv →
      ∃ m data, k ≤ m ∧ act m = some (.read data) ∧ 2 ≤ data.length := by
  obtain ⟨st, act, h1, h2, h3⟩ := steady_of_check (as := answered) (by decide +kernel)
    (fun s hs => by cases hs; exact fun _ => rfl) (fun s hs => by cases hs; exact fun _ => rfl) (by decide +kernel)
  have hlen : answered.length = 57 := by decide
  have hmin : ∀ j, Conn.run small (answered.take (min j 57)) (Conn.init small) = some (st j) := fun j => by
    rw [← h2 j]
    rcases Nat.le_total j 57 with hj | hj
    · rw [Nat.min_eq_left hj]
    · rw [Nat.min_eq_right hj, List.take_of_length_le (by omega), List.take_of_length_le (by omega)]
  have habs : ∀ k c, ((st k).calls (c + 1)).pc = .absent := fun k c => by
    refine Classical.byContradiction fun hx => ?_
    have h4 := h1.exec.keep (I := fun s => (s.calls (c + 1)).pc ≠ .absent) (n := k) (fun m _ a _ ht hi => by
      generalize st (m + 1) = s' at ht
      cases ht <;> simp only [State.set] <;> grind) hx (max k 57) (Nat.le_max_left _ _)
    have h5 := h2 (max k 57)
    rw [List.take_of_length_le (by omega)] at h5
    refine h4 ?_
    generalize st (max k 57) = s at h5
    cases h5; rfl
  have h11 : ((Conn.run small (answered.take 11) (Conn.init small)).map sentAll) = some true := by decide +kernel
  have h12 : ((Conn.run small (answered.take 12) (Conn.init small)).map fun s =>
      decide (s.received = [0, 0, 0, 4, 0, 0, 0, 1])) = some true := by decide +kernel
  rw [h2] at h11 h12
  have h11 := Option.some.inj h11
  obtain ⟨g1, g2⟩ := answered_of (m := 12) (by omega) h11 (of_decide_eq_true (Option.some.inj h12))
  refine ⟨st, act, h1, takes_of_run (L := 57) h1.exec (fun m hm c rest hp => ?_), 11, g1, ?_, g2, fun k c _ hw hc => ?_⟩
  · cases c with
    | zero =>
      have := h2 m
      rw [List.take_of_length_le (by omega)] at this
      generalize st m = s at this hp
      cases this
      cases hp
    | succ c => rw [habs] at hp; cases hp
  · simp only [sentAll, Bool.and_eq_true, decide_eq_true_eq] at h11
    exact h11.2
  · exfalso
    cases c with
    | zero =>
      have hall : ∀ j : Fin 58, ((Conn.run small (answered.take j) (Conn.init small)).map fun s =>
          decide (s.ring.rpc = .waitSend) && ((s.calls 0).pc matches .recv)) = some false := by decide +kernel
      have h6 := hall ⟨min k 57, by omega⟩
      rw [hmin k] at h6
      simp [hw, hc] at h6
    | succ c => rw [habs] at hc; cases hc

end Kafka.Props
