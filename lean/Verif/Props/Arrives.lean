import Verif.Conn.Apart
import Verif.Conn.Arrives
import Verif.Props.Fair
import Verif.Props.Progress
/-!
Property C51 in infinite executions in which no goroutine is passed over for ever: a reply that has arrived is returned,
not only can be.
-/
set_option linter.unusedSimpArgs false

namespace Kafka.Props

open Conn

/-- In an execution no two calls outstanding ever have the same id. -/
def Apart (P : Params) (st : Nat → Conn.State) : Prop :=
  Conn.Reach P (fun s _ => Distinct s) (st 0) ∧ ∀ n, Distinct (st n)

theorem Apart.kept {P : Params} {st : Nat → Conn.State} {act : Nat → Option Act} (h : Apart P st) (he : Exec P st act)
    (n : Nat) : Kept (st n) := by
  refine Reach.kept (P := P) (ok := fun s _ => Distinct s) ?_ (fun _ _ h => h)
  induction n with
  | zero => exact h.1
  | succ n ih =>
    cases ha : act n with
    | none => rw [he.none n ha]; exact ih
    | some a => exact ih.step a (h.2 n) (he.some n a ha)

/-- So it is if there are no more than 2^32 calls. -/
theorem Apart.of_count {P : Params} {st : Nat → Conn.State} {act : Nat → Option Act} (he : Exec P st act)
    (h : ∀ n, (st n).count ≤ 2 ^ 32) : Apart P st :=
  ⟨(he.reach 0).apart (h 0), fun n => (he.reach n).distinct (h n)⟩

/-- An infinite execution in which no goroutine is passed over for ever, in the schedules of C25, in which none panics,
nobody closes the connection and no two calls outstanding have the same id. -/
structure Steady (P : Params) (st : Nat → Conn.State) (act : Nat → Option Act) : Prop where
  exec : Exec P st act
  fair : Fair P st act
  start : Conn.Reach P (PacedConn P) (st 0)
  paced : ∀ n a, act n = some a → PacedConn P (st n) a
  crashed : ∀ n, (st n).crashed = false
  closers : ∀ n k, (st n).closers k = .absent
  apart : Apart P st

/-- The frames in the bytes that have been received and handed over to `messageLoop`, and that it has not yet read. -/
def visible (s : Conn.State) : List (List Byte) := (splitStream (s.received.take s.ring.pub)).drop s.frames.length

section
variable {P : Params} {st : Nat → Conn.State} {act : Nat → Option Act}

theorem Steady.reach (h : Steady P st act) : ∀ n, Conn.Reach P (PacedConn P) (st n)
  | 0 => h.start
  | n + 1 => by
    cases ha : act n with
    | none => rw [h.exec.none n ha]; exact h.reach n
    | some a => exact (h.reach n).step a (h.paced n a ha) (h.exec.some n a ha)

theorem Steady.good (hN : 2 ≤ P.ring) (hP : 4 ≤ P.buf) (h : Steady P st act) (n : Nat) : Good P (st n) := by
  have hr := h.reach n
  have hring : Ring.Reach P.ring (Ring.Paced P.ring) (st n).ring := hr.ring (fun _ _ h => h) (fun r a ha => by
    cases a <;> simp [inRing] at ha <;> trivial)
  obtain ⟨h1, h2, h3⟩ := open_inv hr (h.closers n)
  exact ⟨h.exec.reach n, hr.stream hP, hring.pos (by omega), hring.fifo hN (fun _ _ h => h), hring.calls, hring.pair h1,
    hring.looked hN, h1, h2, h.crashed n⟩

/-- `messageLoop` stops only when it is told to. -/
theorem exited_cancelled {s : Conn.State} (h : Conn.Reach P Conn.Any s) (hm : s.mpc = .exited) : s.cancelled = true := by
  refine h.inv (I := fun s => s.mpc = .exited → s.cancelled = true) (by simp [Conn.init]) ?_ hm
  intro s s' a _ hi hok ht
  clear hok
  cases ht <;> simp_all [State.set]

/-- A call that waits goes on waiting until it returns a reply. -/
theorem Steady.waits (h : Steady P st act) {n c : Nat} (hp : ((st n).calls c).pc = .recv)
    (hno : ¬∃ m d, n ≤ m ∧ ((st m).calls c).pc = .done (.reply d)) :
    ∀ m, n ≤ m → ((st m).calls c).pc = .recv ∧ ((st m).calls c).id = ((st n).calls c).id := by
  refine h.exec.keep (I := fun s => (s.calls c).pc = .recv ∧ (s.calls c).id = ((st n).calls c).id) ?_ ⟨hp, rfl⟩
  intro m hm a _ ht ⟨h1, h2⟩
  have hno' : ∀ d, ((st (m + 1)).calls c).pc ≠ .done (.reply d) := fun d hx => hno ⟨m + 1, d, by omega, hx⟩
  generalize st (m + 1) = s' at ht hno'
  cases ht <;> simp only [State.set] at hno' ⊢ <;> grind

/-- When the frame with the id of a waiting call has been read, the call returns. -/
theorem Steady.answers (hP : 4 ≤ P.buf) (h : Steady P st act) {n c : Nat} {d : Decoder}
    (hp : ((st n).calls c).pc = .recv) (hm : (st n).mpc = .rlock ((st n).calls c).id d) :
    ∃ m d, n ≤ m ∧ ((st m).calls c).pc = .done (.reply d) := by
  refine Classical.byContradiction fun hno => ?_
  have hw := h.waits hp hno
  -- nothing is put into its channel
  have hch : ∀ m, n ≤ m → ((st m).calls c).chan = none := fun m hm => by
    cases hx : ((st m).calls c).chan with
    | none => rfl
    | some d =>
      obtain ⟨m', h1, h2⟩ := C61_takes h.exec h.fair h.crashed (hw m hm).1 hx
      exact absurd ⟨m', d, by omega, h2⟩ hno
  have htk : ∀ m, n ≤ m → (st m).mpc.taken ≠ some c := fun m hm hx => by
    obtain ⟨m', d, h1, h2⟩ := h.fair.sends hP h.exec h.crashed hx
    rw [hch m' (by omega)] at h2
    cases h2
  have hreg : ∀ m, n ≤ m → (st m).requests ((st n).calls c).id = some c := fun m hm => by
    have hr := h.exec.reach m
    have hpm := hw m hm
    have hrg : ((st m).calls c).pc.registered = true := by rw [hpm.1]; rfl
    rcases h.apart.kept h.exec m c hrg (by rw [hpm.1]; simp) with h1 | h1 | h1
    · rw [← hpm.2]; exact h1
    · exact absurd h1 (htk m hm)
    · rcases hr.decoded c h1 with h2 | h2 | h2
      · exact absurd h2 (htk m hm)
      · exact absurd (hch m hm) h2
      · rw [hpm.1] at h2; cases h2
  -- so `messageLoop` finds it
  generalize hid : ((st n).calls c).id = id at *
  obtain ⟨m1, hm1, hp1⟩ := h.fair.move hP h.exec (.rlock id d) (fun s => s.mpc = .lookup id d) (by simp)
    (fun hI k => by
      obtain ⟨m, h1, h2⟩ := h.fair.freeR hP h.exec h.crashed (max n k)
      refine ⟨m, by omega, by omega, ?_⟩
      rw [step_message (h.crashed m)]
      simp [messageStep, hI m (by omega), h2])
    (fun m _ ht hi => by generalize st (m + 1) = s' at ht; cases ht <;> simp_all) hm
  obtain ⟨m2, hm2, c2, hp2⟩ := h.fair.moveReady hP h.exec h.crashed (.lookup id d) (fun s => ∃ c, s.mpc = .delete id d c)
    (by simp) (fun s _ hi => by simp [messageStep, hi])
    (fun m _ ht hi => by generalize st (m + 1) = s' at ht; cases ht <;> simp_all) hp1
  have hc2 := (h.exec.reach m2).tokens.looked id d c2 hp2
  rw [hreg m2 (by omega)] at hc2
  subst hc2
  obtain ⟨m3, hm3, hp3⟩ := h.fair.moveReady hP h.exec h.crashed (.delete id d (some c)) (fun s => s.mpc = .runlock d (some c))
    (by simp) (fun s _ hi => by simp [messageStep, hi])
    (fun m _ ht hi => by generalize st (m + 1) = s' at ht; cases ht <;> simp_all) hp2
  exact htk m3 (by omega) (by rw [hp3]; rfl)

/-- The frames up to a visible one, and the bytes they are in. -/
theorem visible_parsed {s : Conn.State} {p : List Byte} (hp : p ∈ visible s) :
    ∃ fs U, Parsed (fs ++ [p]) U ∧ U <+: s.received ∧ U.length ≤ s.ring.pub ∧ s.frames.length ≤ fs.length := by
  obtain ⟨i, hi, hp⟩ := List.getElem_of_mem hp
  unfold visible at hi hp
  rw [List.length_drop] at hi
  rw [List.getElem_drop] at hp
  obtain ⟨t, h1, h2⟩ := Parsed.of_split (s.received.take s.ring.pub)
  obtain ⟨U, h3, h4⟩ := h1.take (s.frames.length + i + 1)
  refine ⟨(splitStream (s.received.take s.ring.pub)).take (s.frames.length + i), U, ?_, ?_, ?_, ?_⟩
  · rw [← hp, ← List.take_succ_eq_append_getElem]; exact h3
  · exact (h4.trans h2).trans (List.take_prefix _ _)
  · have := (h4.trans h2).length_le; rw [List.length_take] at this; omega
  · rw [List.length_take]; omega

theorem parsed_mem {fs : List (List Byte)} {p U R : List Byte} {k : Nat} (h : Parsed (fs ++ [p]) U) (hU : U <+: R)
    (hk : k ≤ fs.length) : p ∈ (splitStream R).drop k := by
  obtain ⟨t, rfl⟩ := hU
  rw [h.split, List.append_assoc, List.drop_append_of_le_length hk]
  simp

/-- What `messageLoop` does with a frame it has read. -/
theorem _root_.Kafka.Conn.Trans.newFrame {s s' : Conn.State} {a : Act} (hf : Frames P s) (ht : Trans P s a s')
    (hc : s'.crashed = false) (hl : s.frames.length < s'.frames.length) :
    ∃ f, s'.frames = s.frames ++ [f] ∧ (∀ size, s'.mpc ≠ .inHead ∧ s'.mpc ≠ .inBody size) ∧
      (f.length < 4 ∨ ∃ id d, s'.mpc = .rlock id d ∧ Wire.int32 id <+: f) := by
  have hsz := hf.size
  cases ht
  case parse size resp d hm hi hs hd =>
    refine ⟨_, rfl, by simp, .inr ⟨_, _, rfl, ?_⟩⟩
    rcases header_start (raw := s.ring.rdst) (hsz size hm).1 (hsz size hm).2 (by
        rw [hf.length hm hs, ← hf.buf]; exact hs) with ⟨_, h2⟩ | ⟨h1, resp', h2, h3⟩
    · rw [hd] at h2; cases h2
    · rw [hd] at h3
      cases h3
      rw [← h2]
      exact List.take_prefix_take_left (by omega)
  case skip size e d hm hi hs hd =>
    refine ⟨_, rfl, by simp, .inl ?_⟩
    rcases header_start (raw := s.ring.rdst) (hsz size hm).1 (hsz size hm).2 (by
        rw [hf.length hm hs, ← hf.buf]; exact hs) with ⟨h1, h2⟩ | ⟨h1, resp', h2, h3⟩
    · rw [List.length_take]; omega
    · rw [hd] at h3; cases h3
  case parseCrash => cases hc
  all_goals simp [State.set] at hl

/-- When `messageLoop` has read a frame with the id of a waiting call, the call returns. -/
theorem Steady.read (hN : 2 ≤ P.ring) (hP : 4 ≤ P.buf) (h : Steady P st act) {n m c : Nat} (hpc : ((st n).calls c).pc = .recv)
    {fs : List (List Byte)} {p U : List Byte} (hpar : Parsed (fs ++ [p]) U) (hU : U <+: (st n).received)
    (hid : Wire.int32 ((st n).calls c).id <+: p) (hlt : (st n).frames.length ≤ fs.length) (hnm : n ≤ m)
    (hm : fs.length < (st m).frames.length) : ∃ m d, n ≤ m ∧ ((st m).calls c).pc = .done (.reply d) := by
  refine Classical.byContradiction fun hno => ?_
  have hw := h.waits hpc hno
  -- the operation that reads it
  obtain ⟨k, hk, hk1, hk2⟩ : ∃ k, n ≤ k ∧ (st k).frames.length ≤ fs.length ∧ fs.length < (st (k + 1)).frames.length := by
    refine Classical.byContradiction fun hx => ?_
    have : ∀ m, n ≤ m → (st m).frames.length ≤ fs.length := by
      intro m hm
      induction hm with
      | refl => exact hlt
      | @step m hm ih => exact Nat.le_of_not_lt fun hy => hx ⟨m, hm, ih, hy⟩
    exact absurd (this m hnm) (by omega)
  have hg := h.good hN hP (k + 1)
  have hgk := h.good hN hP k
  have hUk : U <+: (st (k + 1)).received :=
    h.exec.keep (I := fun s => U <+: s.received) (n := n) (fun m _ a _ ht hi => hi.trans ht.received) hU (k + 1) (by omega)
  have hwk' := hw (k + 1) (by omega)
  rcases h.exec.trans k with ⟨_, h2⟩ | ⟨a, _, ht⟩
  · rw [h2] at hk2; omega
  obtain ⟨f, hf, ho, hh⟩ := ht.newFrame hgk.reach.frames (h.crashed (k + 1)) (by omega)
  -- it is the frame
  have hfp : f = p := by
    have hpre : (st (k + 1)).ring.taken <+: (st (k + 1)).received :=
      (by rw [hg.calls.taken]; exact List.prefix_append _ _ : (st (k + 1)).ring.taken <+: (st (k + 1)).ring.got).trans hg.got_pre
    have hlen : (st k).frames.length = fs.length := by rw [hf, List.length_append] at hk2; simp at hk2; omega
    have h5 := ((hg.stream.out ho).2.det hpar hpre hUk (by rw [hf, List.length_append, List.length_append]; simp; omega)).1
    rw [hf] at h5
    simpa using (List.append_inj h5 (by omega)).2
  subst hfp
  rcases hh with hh | ⟨id, d, hm, hpre⟩
  · have := hid.length_le
    rw [int32_len] at this
    omega
  · have he : ((st n).calls c).id = id := by
      rw [List.prefix_iff_eq_take, int32_len] at hid hpre
      exact int32_inj (hid.trans hpre.symm)
    obtain ⟨m', d', h4, h5⟩ := h.answers (n := k + 1) (d := d) hP hwk'.1 (by rw [hwk'.2, he, hm])
    exact hno ⟨m', d', by omega, h5⟩

/-- A reply that is visible to a `messageLoop` that is not waiting for it is returned.  The rest of what it is, is C54. -/
theorem Steady.returns (hN : 2 ≤ P.ring) (hP : 4 ≤ P.buf) (h : Steady P st act) {n c : Nat}
    (hpc : ((st n).calls c).pc = .recv) {p : List Byte} (hp : p ∈ visible (st n))
    (hid : Wire.int32 ((st n).calls c).id <+: p) :
    (∃ m d, n ≤ m ∧ ((st m).calls c).pc = .done (.reply d)) ∨ ∀ m, n ≤ m → (st m).ring.rpc.waits = true := by
  obtain ⟨fs, U, h1, h2, h3, h4⟩ := visible_parsed hp
  by_cases hx : ∃ m, n ≤ m ∧ (st m).ring.rpc.waits = false
  · obtain ⟨m, hm, hw⟩ := hx
    have h5 := h.exec.keep (I := fun s => U <+: s.received) (n := n) (fun m _ a _ ht hi => hi.trans ht.received) h2 m hm
    have h6 := h.exec.keep (I := fun s => U.length ≤ s.ring.pub) (n := n)
      (fun m _ a _ ht hi => Nat.le_trans hi (ht.pub (h.good hN hP m))) h3 m hm
    obtain ⟨m', hm', h7⟩ := h.fair.reads hP h.exec (h.good hN hP) hw (fun hx => by
      have := exited_cancelled (h.exec.reach m) hx
      rw [(h.good hN hP m).cancelled] at this; cases this) h1 h5 h6
    exact .inl (h.read hN hP hpc h1 h2 hid h4 (Nat.le_trans hm hm') (by rw [List.length_append] at h7; simp at h7; omega))
  · exact .inr fun m hm => by
      cases hw : (st m).ring.rpc.waits with
      | true => rfl
      | false => exact absurd ⟨m, hm, hw⟩ hx

/-- A `messageLoop` that is about to wait does, or finds it need not. -/
theorem Steady.sleeps (hN : 2 ≤ P.ring) (hP : 4 ≤ P.buf) (h : Steady P st act) {n : Nat}
    (hw : ∀ m, n ≤ m → (st m).ring.rpc.waits = true) :
    ∃ k, n ≤ k ∧ ((st n).ring.rpc = .waitSend → k = n) ∧ ∀ m, k ≤ m → (st m).ring.rpc = .waitSend := by
  have hstep : ∀ m, n ≤ m → ∀ a, Trans P (st m) a (st (m + 1)) → (a.ofMessage = true ∨ (st m).ring.rpc = .waitSend) →
      (st (m + 1)).ring.rpc = .waitSend := fun m hm a ht ha => by
    have h1 := hw m hm
    have h2 := hw (m + 1) (by omega)
    have hc := (h.good hN hP m).closed
    have hout := (h.good hN hP m).stream.out
    have hmid : (st m).mpc = .top ∨ (st m).ring.rpc = .idle → False := fun hx => by
      rcases hx with hx | hx
      · rw [(hout (by rw [hx]; simp)).1] at h1; cases h1
      · rw [hx] at h1; cases h1
    generalize st (m + 1) = s' at ht h2
    cases ht
    case ring b r hb hr =>
      change (b.ofReader = true ∨ _) at ha
      change r.rpc.waits = true at h2
      show r.rpc = .waitSend
      cases ho : b.ofReader with
      | false =>
        rw [(Ring.writer_keeps ho (inRing_calls hb).1 hr).1]
        exact ha.resolve_left (by rw [ho]; simp)
      | true =>
        cases b <;> simp [inRing] at hb <;> simp [Ring.Action.ofReader] at ho
        case r =>
          cases hp : (st m).ring.rpc <;> rw [hp] at h1 <;> first | (cases h1; done) | skip
          · simp only [Ring.step, Ring.rStep, hp, Option.some.injEq] at hr
            subst hr
            split
            · rename_i hx; simp [hx, Ring.rWaited, Ring.RPc.waits] at h2
            · rfl
          · simp [Ring.step, Ring.rStep, hp, hc] at hr
        case handR =>
          simp only [Ring.step] at hr
          split at hr <;> (try split at hr) <;> (try split at hr) <;> simp only [Option.some.injEq, reduceCtorEq] at hr <;>
            subst hr <;> simp [Ring.wReleased, Ring.wReturn, Ring.rWaited, Ring.RPc.waits] at h2
        case handW =>
          simp only [Ring.step] at hr
          split at hr <;> (try split at hr) <;> (try split at hr) <;> simp only [Option.some.injEq, reduceCtorEq] at hr <;>
            rename_i hx <;> rw [hx] at h1 <;> cases h1
    case read data r _ _ _ hr =>
      show r.rpc = .waitSend
      rw [(Ring.writer_keeps rfl rfl hr).1]
      simpa [Act.ofMessage] using ha
    case rbClose k r hk hr => rw [h.closers] at hk; cases hk
    case head r hm _ hr => exact absurd (.inl hm) hmid
    case body size r hm hi _ hr => exact absurd (.inr hi) hmid
    case full hf =>
      simp only [full, Bool.and_eq_true, decide_eq_true_eq] at hf
      rw [hf.1] at h1; cases h1
    all_goals
      first
        | (simp only [Act.ofMessage, Bool.false_eq_true, false_or] at ha; exact ha)
        | (exfalso; have := hout; simp_all [Ring.RPc.waits])
  by_cases h0 : (st n).ring.rpc = .waitSend
  · exact ⟨n, Nat.le_refl n, fun _ => rfl,
      h.exec.keep (I := fun s => s.ring.rpc = .waitSend) (fun m hm a _ ht hi => hstep m (by omega) a ht (.inr hi)) h0⟩
  by_cases hx : ∃ k, n ≤ k ∧ (st k).ring.rpc = .waitSend
  · obtain ⟨k, hk, hp⟩ := hx
    exact ⟨k, hk, fun hx => absurd hx h0, h.exec.keep (I := fun s => s.ring.rpc = .waitSend) (fun m hm a _ ht hi => hstep m (by omega) a ht (.inr hi)) hp⟩
  · have hcas : ∀ m, n ≤ m → (st m).ring.rpc = .waitCas := fun m hm => by
      have := hw m hm
      cases hp : (st m).ring.rpc <;> rw [hp] at this <;> first | (cases this; done) | rfl | exact absurd ⟨m, hm, hp⟩ hx
    obtain ⟨m, a, h1, h2, h3⟩ := h.fair .message (fun k => ⟨max n k, Nat.le_max_right _ _, .ring .r, rfl, by
      simp [Conn.step, h.crashed, full, inRing, Ring.step, Ring.rStep, hcas _ (Nat.le_max_left n k)]⟩) n
    exact absurd ⟨m + 1, by omega, hstep m h1 a (step_trans (h.exec.some m a h2)) (.inl h3)⟩ hx

/-- `readLoop` is in a `WriteN` of two bytes or more that has not woken `messageLoop`. -/
structure Rings (s : Conn.State) : Prop where
  lpc : s.lpc = .inWrite
  two : 2 ≤ s.ring.wn
  wpc : s.ring.wpc = .load1 ∨ s.ring.wpc = .load2 ∨ s.ring.wpc = .put ∨ s.ring.wpc = .store ∨ s.ring.wpc = .relCas ∨
    s.ring.wpc = .relRecv ∨ s.ring.wpc = .fstore ∨ s.ring.wpc = .frelCas ∨ s.ring.wpc = .frelRecv
  wrote : s.ring.wpc = .load1 ∨ s.ring.wpc = .load2 ∨ s.ring.wwrote = 0

/-- It then wakes it. -/
theorem Steady.rings (hN : 2 ≤ P.ring) (hP : 4 ≤ P.buf) (h : Steady P st act) {n : Nat} (h0 : Rings (st n))
    (hw : ∀ m, n ≤ m → (st m).ring.rpc = .waitSend) : False := by
  have hstep : ∀ j, n ≤ j → ∀ a, Trans P (st j) a (st (j + 1)) → Rings (st j) → Rings (st (j + 1)) ∧
      (if a.ofRead = true then 1 else 0) + Ring.wCost (st (j + 1)).ring ≤ Ring.wCost (st j).ring := by
    intro j hj a ht hi
    have hr1 := hw j (by omega)
    have hr2 := hw (j + 1) (by omega)
    have hg := h.good hN hP j
    have hpair := hg.pair
    have hcl := hg.closed
    have hout := hg.stream.out
    have hclo := h.closers j
    obtain ⟨i1, i2, i3, i4⟩ := hi
    generalize st (j + 1) = s' at *
    generalize st j = s at *
    cases ht
    case ring b r hb hr =>
      refine ⟨?_, Ring.step_wCost (inRing_calls hb).2 hr⟩
      have hrs : s.ring.wpc.releasing = false → s.ring.rset = true := fun hx => hpair.rset.2 ⟨hr1, hx⟩
      change r.rpc = .waitSend at hr2
      cases b <;> simp [inRing] at hb
      case r => simp [Ring.step, Ring.rStep, hr1, hcl] at hr
      case handR =>
        exfalso
        simp only [Ring.step] at hr
        split at hr <;> (try split at hr) <;> (try split at hr) <;> simp only [Option.some.injEq, reduceCtorEq] at hr <;>
          subst hr <;> simp [Ring.wReleased, Ring.wReturn, Ring.rWaited] at hr2
      case handW =>
        exfalso
        simp [Ring.step, hr1] at hr
      case w =>
        simp only [Ring.step, Ring.wStep] at hr
        rcases i3 with hp | hp | hp | hp | hp | hp | hp | hp | hp <;> simp only [hp, Option.some.injEq] at hr <;>
          simp only [hp, reduceCtorEq, false_or, or_false, true_or, or_true] at i4
        · subst hr; exact ⟨i1, i2, .inr (.inl rfl), .inr (.inl rfl)⟩
        · subst hr
          unfold Ring.wLoop
          split
          · exact ⟨i1, i2, by simp, .inr (.inr rfl)⟩
          · exact ⟨i1, i2, by simp, .inr (.inr rfl)⟩
        · subst hr
          split
          · exact ⟨i1, i2, by simp, .inr (.inr i4)⟩
          · unfold Ring.wLoop
            split
            · exact ⟨i1, i2, by simp, .inr (.inr i4)⟩
            · exact ⟨i1, i2, by simp, .inr (.inr i4)⟩
        · subst hr; exact ⟨i1, i2, by simp, .inr (.inr i4)⟩
        · rw [if_pos (hrs (by rw [hp]; rfl))] at hr
          subst hr; exact ⟨i1, i2, by simp, .inr (.inr i4)⟩
        · simp [hcl] at hr
        · rw [if_pos (by omega)] at hr
          subst hr; exact ⟨i1, i2, by simp, .inr (.inr i4)⟩
        · rw [if_pos (hrs (by rw [hp]; rfl))] at hr
          subst hr; exact ⟨i1, i2, by simp, .inr (.inr i4)⟩
        · simp [hcl] at hr
    case read data r hl _ _ hr => rw [i1] at hl; cases hl
    case readErr _ hl _ _ => rw [i1] at hl; cases hl
    case readNext hl hx => exfalso; simp_all
    case rbClose k r hk hr => rw [hclo] at hk; cases hk
    case head r hm _ hr => have := (hout (by rw [hm]; simp)).1; rw [hr1] at this; cases this
    case body size r hm hi' _ hr => rw [hr1] at hi'; cases hi'
    all_goals (refine ⟨⟨i1, i2, i3, i4⟩, ?_⟩; simp [Act.ofRead, Ring.Action.ofWriter, State.set])
  have hin : ∀ j, n ≤ j → Rings (st j) := h.exec.keep (I := Rings) (fun j hj a _ ht hi => (hstep j hj a ht hi).1) h0
  obtain ⟨j, hj, hstop⟩ := h.fair.stops h.exec .read (fun s => Ring.wCost s.ring) (n := n)
    (fun j hj a ht => (hstep j hj a ht (hin j hj)).2)
  have hi := hin j hj
  refine (hstop j (Nat.le_refl j)).1 ⟨?_, fun hl => by rw [hi.lpc] at hl; cases hl⟩
  have hr := hw j (by omega)
  have hc := h.crashed j
  rcases hi.wpc with hp | hp | hp | hp | hp | hp | hp | hp | hp
  case inr.inr.inr.inr.inr.inl => exact ⟨.ring .handR, rfl, by simp [Conn.step, hc, inRing, Ring.step, hp, hr]⟩
  case inr.inr.inr.inr.inr.inr.inr.inr => exact ⟨.ring .handR, rfl, by simp [Conn.step, hc, inRing, Ring.step, hp, hr]⟩
  all_goals exact ⟨.ring .w, rfl, by simp [Conn.step, hc, inRing, Ring.step, Ring.wStep, hp]⟩

/-- The next two bytes the peer sends together wake it. -/
theorem Steady.woken (hN : 2 ≤ P.ring) (hP : 4 ≤ P.buf) (h : Steady P st act) {k m : Nat} {data : List Byte} (hkm : k ≤ m)
    (ha : act m = some (.read data)) (h2 : 2 ≤ data.length) (hw : ∀ m, k ≤ m → (st m).ring.rpc = .waitSend) : False := by
  have h0 : Rings (st (m + 1)) := by
    have ht := step_trans (h.exec.some m _ ha)
    generalize st (m + 1) = s' at ht
    cases ht with
    | read _ r _ _ _ hr =>
      obtain ⟨_, _, rfl⟩ := ring_callW hr
      exact ⟨rfl, h2, .inl rfl, .inl rfl⟩
  exact h.rings hN hP h0 fun j hj => hw j (by omega)

/-! ## C51: a reply that has arrived is returned -/

/-- The full claim for executions: a reply that has been received and handed over to `messageLoop` is returned. -/
def C51_fair_statement (P : Params) (at' : (Nat → Conn.State) → (Nat → Option Act) → Nat → Prop) : Prop :=
  ∀ st act, Steady P st act → ∀ n, at' st act n → ∀ c, ((st n).calls c).pc = .recv →
    ∀ p ∈ visible (st n), Wire.int32 ((st n).calls c).id <+: p →
    ∃ m d, n ≤ m ∧ ((st m).calls c).pc = .done (.reply d) ∧
      ∃ f ∈ splitStream (st m).received, Wire.int32 ((st m).calls c).id <+: f ∧ Given P.buf f d

/-- `messageLoop` waits in `ReadN`, having read all that there was when it last looked. -/
def ReaderWaits (s : Conn.State) : Prop := s.ring.rpc = .waitSend ∧ s.ring.rpub = s.ring.got.length

/-- `readLoop` waits in `WriteN`, the buffer having been full when it last looked. -/
def WriterWaits (P : Params) (s : Conn.State) : Prop :=
  s.ring.wpc = .waitSend ∧ s.ring.put.length + 1 = s.ring.wrel + P.ring

/-- In every such execution the call returns the reply; or else, from some moment on, `messageLoop` waits in `ReadN` for
ever, although the reply is there, and the peer never sends two bytes together. -/
theorem C51_fair {P : Params} (hN : 2 ≤ P.ring) (hP : 4 ≤ P.buf) {st : Nat → Conn.State} {act : Nat → Option Act}
    (h : Steady P st act) {n c : Nat} (hpc : ((st n).calls c).pc = .recv) {p : List Byte} (hp : p ∈ visible (st n))
    (hid : Wire.int32 ((st n).calls c).id <+: p) :
    (∃ m d, n ≤ m ∧ ((st m).calls c).pc = .done (.reply d) ∧
      ∃ f ∈ splitStream (st m).received, Wire.int32 ((st m).calls c).id <+: f ∧ Given P.buf f d) ∨
    ∃ k, n ≤ k ∧ ∀ m, k ≤ m → ((st m).calls c).pc = .recv ∧ ReaderWaits (st m) ∧ p ∈ visible (st m) ∧
      ∀ data, act m = some (.read data) → data.length ≤ 1 := by
  by_cases hx : ∃ m d, n ≤ m ∧ ((st m).calls c).pc = .done (.reply d)
  · obtain ⟨m, d, h1, h2⟩ := hx
    exact .inl ⟨m, d, h1, h2, C54_partial hN hP (st m) (h.reach m) c d h2⟩
  · have hw := (h.returns hN hP hpc hp hid).resolve_left hx
    obtain ⟨k, hk, _, hs⟩ := h.sleeps hN hP hw
    obtain ⟨fs, U, h1, h2, h3, h4⟩ := visible_parsed hp
    have h5 := h.exec.keep (I := fun s => U <+: s.received) (n := n) (fun m _ a _ ht hi => hi.trans ht.received) h2
    have h6 := h.exec.keep (I := fun s => U.length ≤ s.ring.pub) (n := n)
      (fun m _ a _ ht hi => Nat.le_trans hi (ht.pub (h.good hN hP m))) h3
    exact .inr ⟨k, hk, fun m hm => ⟨(h.waits hpc hx m (by omega)).1,
      ⟨hs m hm, (h.good hN hP m).looked.empty (by rw [hs m hm]; rfl)⟩, parsed_mem h1
      (List.prefix_take_iff.2 ⟨h5 m (by omega), h6 m (by omega)⟩)
      (Nat.le_of_not_lt fun hlt => hx (h.read hN hP hpc h1 h2 hid h4 (by omega : n ≤ m) hlt)), fun data ha =>
      Nat.le_of_not_lt fun h2 => h.woken hN hP hm ha h2 hs⟩⟩

/-- So the call returns the reply when `messageLoop` is not waiting.  Missing for the full claim: when it is. -/
theorem C51_fair_partial {P : Params} (hN : 2 ≤ P.ring) (hP : 4 ≤ P.buf) : C51_fair_statement P (fun st _ n =>
    (st n).ring.rpc ≠ .waitCas ∧ (st n).ring.rpc ≠ .waitSend) := by
  intro st act h n hat c hpc p hp hid
  rcases h.returns hN hP hpc hp hid with ⟨m, d, h1, h2⟩ | hw
  · exact ⟨m, d, h1, h2, C54_partial hN hP (st m) (h.reach m) c d h2⟩
  · have := hw n (Nat.le_refl n)
    cases hx : (st n).ring.rpc <;> rw [hx] at this <;> first | (cases this; done) | exact absurd hx hat.1 | exact absurd hx hat.2

/-- And when it waits, as soon as the peer sends two bytes or more together. -/
theorem C51_fair_woken_partial {P : Params} (hN : 2 ≤ P.ring) (hP : 4 ≤ P.buf) : C51_fair_statement P (fun st act n =>
    (st n).ring.rpc = .waitSend ∧ ∃ m data, n ≤ m ∧ act m = some (.read data) ∧ 2 ≤ data.length) := by
  intro st act h n ⟨hat, m, data, hm, ha, h2⟩ c hpc p hp hid
  rcases h.returns hN hP hpc hp hid with ⟨m, d, h3, h4⟩ | hw
  · exact ⟨m, d, h3, h4, C54_partial hN hP (st m) (h.reach m) c d h4⟩
  · obtain ⟨k, _, hk, hs⟩ := h.sleeps hN hP hw
    rw [hk hat] at hs
    exact (h.woken hN hP hm ha h2 hs).elim

/-! ### Not only what has been handed over -/

/-- The frames up to one that has been received, and the bytes they are in. -/
theorem pending_parsed {s : Conn.State} {p : List Byte} (hp : p ∈ pending s) :
    ∃ fs U, Parsed (fs ++ [p]) U ∧ U <+: s.received ∧ s.frames.length ≤ fs.length := by
  obtain ⟨i, hi, hp⟩ := List.getElem_of_mem hp
  unfold pending at hi hp
  rw [List.length_drop] at hi
  rw [List.getElem_drop] at hp
  obtain ⟨t, h1, h2⟩ := Parsed.of_split s.received
  obtain ⟨U, h3, h4⟩ := h1.take (s.frames.length + i + 1)
  refine ⟨(splitStream s.received).take (s.frames.length + i), U, ?_, h4.trans h2, ?_⟩
  · rw [← hp, ← List.take_succ_eq_append_getElem]; exact h3
  · rw [List.length_take]; omega

/-- The full claim: a reply that has been received is returned. -/
def C51_received_statement (P : Params) (at' : (Nat → Conn.State) → (Nat → Option Act) → Nat → Prop) : Prop :=
  ∀ st act, Steady P st act → ∀ n, at' st act n → ∀ c, ((st n).calls c).pc = .recv →
    ∀ p ∈ pending (st n), Wire.int32 ((st n).calls c).id <+: p →
    ∃ m d, n ≤ m ∧ ((st m).calls c).pc = .done (.reply d) ∧
      ∃ f ∈ splitStream (st m).received, Wire.int32 ((st m).calls c).id <+: f ∧ Given P.buf f d

/-- In every such execution the call returns the reply; or else, from some moment on, `messageLoop` waits in `ReadN` for
ever, and either the reply has been handed over to it and no two bytes are received together any more, or the reply is
there and `readLoop` waits for `messageLoop` for ever too. -/
theorem C51_received {P : Params} (hN : 2 ≤ P.ring) (hP : 4 ≤ P.buf) {st : Nat → Conn.State} {act : Nat → Option Act}
    (h : Steady P st act) {n c : Nat} (hpc : ((st n).calls c).pc = .recv) {p : List Byte} (hp : p ∈ pending (st n))
    (hid : Wire.int32 ((st n).calls c).id <+: p) :
    (∃ m d, n ≤ m ∧ ((st m).calls c).pc = .done (.reply d) ∧
      ∃ f ∈ splitStream (st m).received, Wire.int32 ((st m).calls c).id <+: f ∧ Given P.buf f d) ∨
    ∃ k, n ≤ k ∧ (∀ m, k ≤ m → ((st m).calls c).pc = .recv ∧ ReaderWaits (st m)) ∧
      ((∀ m, k ≤ m → p ∈ visible (st m) ∧ ∀ data, act m = some (.read data) → data.length ≤ 1) ∨
        ∀ m, k ≤ m → p ∈ pending (st m) ∧ WriterWaits P (st m)) := by
  by_cases hx : ∃ m d, n ≤ m ∧ ((st m).calls c).pc = .done (.reply d)
  · obtain ⟨m, d, h1, h2⟩ := hx
    exact .inl ⟨m, d, h1, h2, C54_partial hN hP (st m) (h.reach m) c d h2⟩
  refine .inr ?_
  have hg := h.good hN hP
  have hrun : ∀ m, (st m).mpc ≠ .exited := fun m hx => by
    have := exited_cancelled (h.exec.reach m) hx
    rw [(hg m).cancelled] at this; cases this
  obtain ⟨fs, U, h1, h2, h4⟩ := pending_parsed hp
  have h5 := h.exec.keep (I := fun s => U <+: s.received) (n := n) (fun m _ a _ ht hi => hi.trans ht.received) h2
  have hpend : ∀ m, n ≤ m → p ∈ pending (st m) := fun m hm => parsed_mem h1 (h5 m hm)
    (Nat.le_of_not_lt fun hlt => hx (h.read hN hP hpc h1 h2 hid h4 hm hlt))
  rcases h.fair.publishes hP h.exec hg (fun m ha => h.paced m _ ha) (hrun n) h2.length_le with ⟨j, hj, hpub⟩ | ⟨k, hk, hw⟩
  · -- it is handed over
    have h6 := h.exec.keep (I := fun s => U.length ≤ s.ring.pub) (n := j)
      (fun m _ a _ ht hi => Nat.le_trans hi (ht.pub (hg m))) hpub
    have hwait : ∀ m, j ≤ m → (st m).ring.rpc.waits = true := fun m hm => by
      cases hw : (st m).ring.rpc.waits with
      | true => rfl
      | false =>
        obtain ⟨m', hm', h7⟩ := h.fair.reads hP h.exec hg hw (hrun m) h1 (h5 m (by omega)) (h6 m hm)
        exact absurd (h.read hN hP hpc h1 h2 hid h4 (by omega : n ≤ m') (by rw [List.length_append] at h7; simp at h7; omega)) hx
    obtain ⟨k, hk, _, hs⟩ := h.sleeps hN hP hwait
    exact ⟨k, by omega, fun m hm => ⟨(h.waits hpc hx m (by omega)).1,
      ⟨hs m hm, (hg m).looked.empty (by rw [hs m hm]; rfl)⟩⟩, .inl fun m hm => ⟨parsed_mem h1
        (List.prefix_take_iff.2 ⟨h5 m (by omega), h6 m (by omega)⟩)
        (Nat.le_of_not_lt fun hlt => hx (h.read hN hP hpc h1 h2 hid h4 (by omega : n ≤ m) hlt)), fun data ha =>
      Nat.le_of_not_lt fun h2 => h.woken hN hP hm ha h2 hs⟩⟩
  · exact ⟨k, hk, fun m hm => ⟨(h.waits hpc hx m (by omega)).1,
      ⟨(hw m hm).1, (hg m).looked.empty (by rw [(hw m hm).1]; rfl)⟩⟩,
      .inr fun m hm => ⟨hpend m (by omega), (hw m hm).2, (hg m).looked.full (.inr (hw m hm).2)⟩⟩

/-- So the call returns the reply if, whenever `messageLoop` waits while a call does, two bytes or more are received
together later.  Missing for the full claim: when they are not. -/
theorem C51_received_partial {P : Params} (hN : 2 ≤ P.ring) (hP : 4 ≤ P.buf) : C51_received_statement P (fun st act n =>
    ∀ k c, n ≤ k → (st k).ring.rpc = .waitSend → ((st k).calls c).pc = .recv →
      ∃ m data, k ≤ m ∧ act m = some (.read data) ∧ 2 ≤ data.length) := by
  intro st act h n hat c hpc p hp hid
  rcases C51_received hN hP h hpc hp hid with hr | ⟨k, hk, h1, h2⟩
  · exact hr
  · obtain ⟨m, data, h3, h4, h5⟩ := hat k c hk (h1 k (Nat.le_refl k)).2.1 (h1 k (Nat.le_refl k)).1
    rcases h2 with h2 | h2
    · exact absurd ((h2 m h3).2 data h4) (by omega)
    · have h6 := (h2 m h3).2.1
      have ht := step_trans (h.exec.some m _ h4)
      generalize st (m + 1) = s' at ht
      cases ht with
      | read _ r _ _ _ hr => have := (ring_callW hr).1; rw [h6] at this; cases this

/-- `readLoop` is in a `WriteN` of two bytes or more, with room for all of them, while `messageLoop` waits. -/
structure Brings (P : Params) (s : Conn.State) : Prop where
  rpc : s.ring.rpc = .waitSend
  two : 2 ≤ s.ring.wn
  room : s.received.length + 1 < s.ring.got.length + P.ring
  wpc : s.ring.wpc = .load1 ∨ s.ring.wpc = .load2 ∨ s.ring.wpc = .put ∨ s.ring.wpc = .fstore ∨ s.ring.wpc = .frelCas ∨
    s.ring.wpc = .frelRecv
  wrote : s.ring.wpc = .load1 ∨ s.ring.wpc = .load2 ∨ s.ring.wwrote = 0
  rel : s.ring.wpc = .put → s.ring.wrel = s.ring.got.length

theorem Brings.step (hN : 2 ≤ P.ring) {s s' : Conn.State} {a : Act} (hg : Good P s) (hclo : ∀ k, s.closers k = .absent)
    (hi : Brings P s) (ht : Trans P s a s') : Brings P s' ∨ s'.ring.rpc = .get ∧ s'.ring.pub = s'.received.length := by
  have hpair := hg.pair
  have hcl := hg.closed
  have hout := hg.stream.out
  obtain ⟨hr1, i2, i5, i3, i4, i6⟩ := hi
  have hrel : s.ring.rel = s.ring.got.length := hg.pos.rrel (by rw [hr1]; rfl)
  have hgiven := hg.calls.given.symm.trans hg.stream.given
  have hwl := fun t : Ring.State => Ring.wLoop_pc t
  cases ht
  case ring b r hb hr =>
    have hrs : s.ring.wpc.releasing = false → s.ring.rset = true := fun hx => hpair.rset.2 ⟨hr1, hx⟩
    cases b <;> simp [inRing] at hb
    case r => simp [Ring.step, Ring.rStep, hr1, hcl] at hr
    case handW => simp [Ring.step, hr1] at hr
    case handR =>
      refine .inr ?_
      rcases i3 with hp | hp | hp | hp | hp | hp <;>
        simp only [Ring.step, hp, hr1, if_true, reduceCtorEq, if_false, Option.some.injEq] at hr
      subst hr
      refine ⟨rfl, ?_⟩
      show s.ring.pub = s.received.length
      have h1 := hg.pos.wpub (by rw [hp]; rfl)
      have h2 := congrArg List.length hgiven
      rw [hp] at h2
      simp [Ring.WPc.wrote] at h2
      omega
    case w =>
      refine .inl ?_
      simp only [Ring.step, Ring.wStep] at hr
      rcases i3 with hp | hp | hp | hp | hp | hp <;> simp only [hp, Option.some.injEq] at hr <;>
        simp only [hp, reduceCtorEq, false_or, or_false, true_or, or_true] at i4
      · subst hr; exact ⟨hr1, i2, i5, .inr (.inl rfl), .inr (.inl rfl), by simp⟩
      · subst hr
        unfold Ring.wLoop
        split
        · exact ⟨hr1, i2, i5, by simp, .inr (.inr rfl), fun _ => hrel⟩
        · exact ⟨hr1, i2, i5, by simp, .inr (.inr rfl), by simp⟩
      · subst hr
        have hw := i6 hp
        have hbody := hg.calls.wbody (.inr hp)
        have hlen := hg.calls.wlen
        have h2 := congrArg List.length hgiven
        rw [hp] at h2
        simp [Ring.WPc.wrote] at h2
        have hroom := hg.fifo.room
        rw [if_neg (by
          intro hx
          rw [hg.pos.wpos (by rw [hp]; rfl), Ring.incr_mod (by omega), Ring.incr_mod (by omega),
            hg.pos.wstart (by rw [hp]; rfl), ← Nat.add_mod_right s.ring.wrel] at hx
          have h3 := hg.pos.pub_le
          have h4 := hg.fifo.got_le
          have h5 := Ring.mod_inj (by omega) (by omega) hx
          omega)]
        unfold Ring.wLoop
        split
        · exact ⟨hr1, i2, i5, by simp, .inr (.inr i4), fun _ => hw⟩
        · exact ⟨hr1, i2, i5, by simp, .inr (.inr i4), by simp⟩
      · rw [if_pos (by omega)] at hr
        subst hr; exact ⟨hr1, i2, i5, by simp, .inr (.inr i4), by simp⟩
      · rw [if_pos (hrs (by rw [hp]; rfl))] at hr
        subst hr; exact ⟨hr1, i2, i5, by simp, .inr (.inr i4), by simp⟩
      · simp [hcl] at hr
  case read data r hl _ _ hr =>
    have hx := (ring_callW hr).1
    rw [hx] at i3
    simp at i3
  case rbClose k r hk hr => rw [hclo] at hk; cases hk
  case head r hm _ hr => have := (hout (by rw [hm]; simp)).1; rw [hr1] at this; cases this
  case body size r hm hi' _ hr => rw [hr1] at hi'; cases hi'
  all_goals exact .inl ⟨hr1, i2, i5, i3, i4, i6⟩

/-- A reply the end of which is received in a piece of two bytes or more while `messageLoop` waits, and with which the
buffer is not full, is returned. -/
theorem C51_prompt_partial {P : Params} (hN : 2 ≤ P.ring) (hP : 4 ≤ P.buf) : C51_received_statement P (fun st act n =>
    ∃ m data, n = m + 1 ∧ act m = some (.read data) ∧ 2 ≤ data.length ∧ (st m).ring.rpc = .waitSend ∧
      (st n).received.length + 1 < (st n).ring.got.length + P.ring) := by
  rintro st act h _ ⟨m, data, rfl, ha, h2, hw, hroom⟩ c hpc p hp hid
  have hg := h.good hN hP
  have h0 : Brings P (st (m + 1)) := by
    have ht := step_trans (h.exec.some m _ ha)
    generalize st (m + 1) = s' at ht hroom
    cases ht with
    | read _ r _ _ _ hr =>
      obtain ⟨_, _, rfl⟩ := ring_callW hr
      exact ⟨hw, h2, hroom, .inl rfl, .inl rfl, by simp⟩
  obtain ⟨j, hj, hget, hpub⟩ : ∃ j, m + 1 ≤ j ∧ (st j).ring.rpc = .get ∧ (st (m + 1)).received.length ≤ (st j).ring.pub := by
    refine Classical.byContradiction fun hno => ?_
    have hrec : ∀ j, m + 1 ≤ j → (st (m + 1)).received.length ≤ (st j).received.length :=
      h.exec.keep (I := fun s => (st (m + 1)).received.length ≤ s.received.length)
        (fun j _ a _ ht hi => Nat.le_trans hi ht.received.length_le) (Nat.le_refl _)
    have hall := h.exec.keep (I := Brings P) (n := m + 1) (fun j hj a _ ht hi =>
      (hi.step hN (hg j) (h.closers j) ht).resolve_right fun hx =>
        hno ⟨j + 1, by omega, hx.1, by rw [hx.2]; exact hrec (j + 1) (by omega)⟩) h0
    exact h.woken hN hP (k := m) (Nat.le_refl m) ha h2 fun i hi => by
      rcases Nat.eq_or_lt_of_le hi with rfl | hi
      · exact hw
      · exact (hall i hi).rpc
  obtain ⟨fs, U, h1, h3, h4⟩ := pending_parsed hp
  by_cases hx : ∃ j d, m + 1 ≤ j ∧ ((st j).calls c).pc = .done (.reply d)
  · obtain ⟨j, d, h5, h6⟩ := hx
    exact ⟨j, d, h5, h6, C54_partial hN hP (st j) (h.reach j) c d h6⟩
  have h5 := h.exec.keep (I := fun s => U <+: s.received) (n := m + 1) (fun m _ a _ ht hi => hi.trans ht.received) h3 j hj
  have hw' := h.waits hpc hx j hj
  obtain ⟨i, d, h6, h7⟩ := C51_fair_partial hN hP st act h j (by constructor <;> rw [hget] <;> simp) c hw'.1 p (parsed_mem h1
    (List.prefix_take_iff.2 ⟨h5, Nat.le_trans h3.length_le hpub⟩)
    (Nat.le_of_not_lt fun hlt => hx (h.read hN hP hpc h1 h3 hid h4 hj hlt))) (by rw [hw'.2]; exact hid)
  exact ⟨i, d, by omega, h7⟩

end

/-! ## There are such executions -/

/-- A schedule that ends where nothing but the peer can go on, followed by nothing for ever. -/
theorem steady_of_run {P : Params} {as : List Act} {s : Conn.State} (hrun : Conn.run P as (Conn.init P) = some s)
    (ht : ∀ x ∈ connTrace P as (Conn.init P), PacedConn P x.1 x.2) (hs : ∀ p, ¬CanGo P s p) (hcr : s.crashed = false)
    (hcl : ∀ k, s.closers k = .absent) (hcnt : s.count ≤ 2 ^ 32) :
    ∃ st act, Steady P st act ∧ (∀ m, Conn.run P (as.take m) (Conn.init P) = some (st m)) ∧ ∀ m, act m = as[m]? := by
  obtain ⟨st, act, h1, h2, h3, h4⟩ := fair_of_run_act .init hrun hs
  have hend : ∀ m, as.length ≤ m → st m = s := fun m hm => by
    have := h3 m
    rw [List.take_of_length_le hm, hrun] at this
    exact (Option.some.inj this).symm
  have htrace : ∀ (as : List Act) (s : Conn.State) (m : Nat) (a : Act) (s' : Conn.State), as[m]? = some a →
      Conn.run P (as.take m) s = some s' → (s', a) ∈ connTrace P as s := by
    intro as
    induction as with
    | nil => intro s m a s' ha _; simp at ha
    | cons b as ih =>
      intro s m a s' ha hr
      cases m with
      | zero =>
        simp only [List.take_zero, Conn.run, Option.some.injEq] at hr
        simp only [List.getElem?_cons_zero, Option.some.injEq] at ha
        subst ha hr
        simp [connTrace]
      | succ m =>
        simp only [List.take_succ_cons, Conn.run] at hr
        obtain ⟨s1, g1, g2⟩ := Option.bind_eq_some_iff.1 hr
        simp only [connTrace, g1, Option.map_some, Option.getD_some, List.mem_cons]
        exact .inr (ih s1 m a s' (by simpa using ha) g2)
  refine ⟨st, act, ⟨h1, h2, ?_, ?_, ?_, ?_, ?_⟩, h3, h4⟩
  · have := h3 0
    simp only [List.take_zero, Conn.run, Option.some.injEq] at this
    rw [← this]; exact .init
  · intro n a ha
    rw [h4] at ha
    exact ht _ (htrace _ _ _ _ _ ha (h3 n))
  · intro n
    cases hx : (st n).crashed with
    | false => rfl
    | true =>
      have h5 := crashed_stays h1 hx (max n as.length) (Nat.le_max_left _ _)
      rw [hend _ (Nat.le_max_right _ _), hcr] at h5
      cases h5
  · intro n k
    refine Classical.byContradiction fun hx => ?_
    have h5 := h1.keep (I := fun s => s.closers k ≠ .absent) (n := n) (fun m _ a _ ht hi => by
      generalize st (m + 1) = s' at ht
      cases ht <;> simp only [State.set] <;> grind) hx (max n as.length) (Nat.le_max_left _ _)
    rw [hend _ (Nat.le_max_right _ _)] at h5
    exact h5 (hcl k)
  · refine .of_count h1 fun n => ?_
    have h5 := h1.keep (I := fun s => (st n).count ≤ s.count) (n := n) (fun m _ a _ ht hi => by
      generalize st (m + 1) = s' at ht
      cases ht <;> simp [State.set] <;> omega) (Nat.le_refl _) (max n as.length) (Nat.le_max_left _ _)
    rw [hend _ (Nat.le_max_right _ _)] at h5
    omega

/-- The same for a schedule with one call, checked by running it. -/
theorem steady_of_check {as : List Act} (h : ((Conn.run small as (Conn.init small)).map fun s =>
      ((Conn.step small .message s).isSome || (Conn.step small (.ring .r) s).isSome ||
      (Conn.step small (.ring .handR) s).isSome || (Conn.step small (.ring .handW) s).isSome ||
      (Conn.step small (.call 0) s).isSome || s.rawClosed || s.crashed || !decide (s.lpc = .read) ||
      !decide (s.count ≤ 2 ^ 32))) = some false)
    (h1 : ∀ s, Conn.run small as (Conn.init small) = some s → ∀ c, ((s.calls (c + 1)).pc = .absent))
    (h2 : ∀ s, Conn.run small as (Conn.init small) = some s → ∀ k, s.closers k = .absent)
    (ht : ∀ x ∈ connTrace small as (Conn.init small), PacedConn small x.1 x.2) :
    ∃ st act, Steady small st act ∧ (∀ m, Conn.run small (as.take m) (Conn.init small) = some (st m)) ∧
      ∀ m, act m = as[m]? := by
  obtain ⟨s, hs, h⟩ := Option.map_eq_some_iff.1 h
  simp only [Bool.or_eq_false_iff, Bool.not_eq_false', decide_eq_true_eq] at h
  obtain ⟨⟨⟨⟨⟨⟨⟨⟨e1, e2⟩, e3⟩, e4⟩, e5⟩, e7⟩, e8⟩, e9⟩, e10⟩ := h
  refine steady_of_run hs ht (fun p hp => ?_) e8 (h2 s hs) e10
  cases p with
  | message =>
    obtain ⟨a, ha, hst⟩ := hp
    cases a <;> simp [Act.ofMessage] at ha
    case message => rw [e1] at hst; cases hst
    case ring a => cases a <;> simp [Ring.Action.ofReader] at ha <;> simp_all
  | read => have := hp.2 e9; rw [e7] at this; cases this
  | call c =>
    rcases hp with hp | ⟨hp, _⟩
    · match c with
      | 0 => rw [e5] at hp; cases hp
      | c + 1 => rw [step_call e8] at hp; simp [callStep, h1 s hs c] at hp
    · rw [e7] at hp; cases hp
  | close k => exact hp.1 (h2 s hs k)

theorem visible_eq {s : Conn.State} (h1 : s.received = [0, 0, 0, 4, 0, 0, 0, 1]) (h2 : s.frames = []) (h3 : s.ring.pub = 8) :
    visible s = [[0, 0, 0, 1]] := by
  unfold visible
  rw [h1, h2, h3]
  exact (splitStream_frame 4 [0, 0, 0, 1] [] (by decide)).trans (by rw [splitStream.eq_def])

/-- What the instances are about, checked by running the schedule: the reply is there and the call waits. -/
def atReply (s : Conn.State) (rpc : Ring.RPc) : Bool :=
  decide (s.ring.rpc = rpc) && ((s.calls 0).pc matches .recv) && decide ((s.calls 0).id = 1) &&
    decide (s.received = [0, 0, 0, 4, 0, 0, 0, 1]) && decide (s.frames = []) && decide (s.ring.pub = 8)

theorem atReply_spec {s : Conn.State} {rpc : Ring.RPc} (h : atReply s rpc = true) :
    s.ring.rpc = rpc ∧ (s.calls 0).pc = .recv ∧ (s.calls 0).id = 1 ∧ [0, 0, 0, 1] ∈ visible s := by
  simp only [atReply, Bool.and_eq_true, decide_eq_true_eq] at h
  obtain ⟨⟨⟨⟨⟨g1, g2⟩, g3⟩, g4⟩, g5⟩, g6⟩ := h
  refine ⟨g1, ?_, g3, by rw [visible_eq g4 g5 g6]; simp⟩
  split at g2
  · assumption
  · cases g2

/-- Non-trivial instance of `C51_fair` and `C51_fair_partial`: the reply has been handed over, `messageLoop` has not begun
to read. -/
theorem arrives_example : ∃ st act, Steady small st act ∧ ∃ n, (st n).ring.rpc = .idle ∧ ((st n).calls 0).pc = .recv ∧
    ((st n).calls 0).id = 1 ∧ [0, 0, 0, 1] ∈ visible (st n) := by
  obtain ⟨st, act, h1, h2, h3⟩ := steady_of_check (as := answered) (by decide +kernel)
    (fun s hs => by cases hs; exact fun _ => rfl) (fun s hs => by cases hs; exact fun _ => rfl) (by decide +kernel)
  refine ⟨st, act, h1, 25, ?_⟩
  have h : ((Conn.run small (answered.take 25) (Conn.init small)).map fun s => atReply s .idle) = some true := by
    decide +kernel
  rw [h2] at h
  exact atReply_spec (Option.some.inj h)

/-- Non-trivial instance of `C51_received` and `C51_received_partial`: the reply has been received, none of it has been
handed over; `messageLoop` does not wait until the call has returned. -/
theorem received_example : ∃ st act, Steady small st act ∧ ∃ n, ((st n).calls 0).pc = .recv ∧ ((st n).calls 0).id = 1 ∧
    [0, 0, 0, 1] ∈ pending (st n) ∧ visible (st n) = [] ∧
    ∀ k c, n ≤ k → (st k).ring.rpc = .waitSend → ((st k).calls c).pc = .recv →
      ∃ m data, k ≤ m ∧ act m = some (.read data) ∧ 2 ≤ data.length := by
  obtain ⟨st, act, h1, h2, h3⟩ := steady_of_check (as := answered) (by decide +kernel)
    (fun s hs => by cases hs; exact fun _ => rfl) (fun s hs => by cases hs; exact fun _ => rfl) (by decide +kernel)
  have hlen : answered.length = 57 := by decide
  have h : ((Conn.run small (answered.take 12) (Conn.init small)).map fun s =>
      ((s.calls 0).pc matches .recv) && decide ((s.calls 0).id = 1) && decide (s.received = [0, 0, 0, 4, 0, 0, 0, 1]) &&
        decide (s.frames = []) && decide (s.ring.pub = 0)) = some true := by decide +kernel
  rw [h2] at h
  have h := Option.some.inj h
  simp only [Bool.and_eq_true, decide_eq_true_eq] at h
  obtain ⟨⟨⟨⟨g1, g2⟩, g3⟩, g4⟩, g5⟩ := h
  refine ⟨st, act, h1, 12, ?_, g2, ?_, ?_, ?_⟩
  · split at g1
    · assumption
    · cases g1
  · unfold pending
    rw [g3, g4]
    show _ ∈ splitStream _
    have e : splitStream [0, 0, 0, 4, 0, 0, 0, 1] = [0, 0, 0, 1] :: splitStream [] :=
      splitStream_frame 4 [0, 0, 0, 1] [] (by decide)
    rw [e]
    simp
  · unfold visible
    rw [g5, List.take_zero, splitStream.eq_def]
    simp
  · intro k c hk hw hc
    exfalso
    -- the call has returned wherever `messageLoop` waits
    have hall : ∀ j : Fin 58, ((Conn.run small (answered.take j) (Conn.init small)).map fun s =>
        decide (s.ring.rpc = .waitSend) && ((s.calls 0).pc matches .recv)) = some false := by decide +kernel
    have hz : ∀ j, (st j).ring.rpc = .waitSend → ((st j).calls 0).pc = .recv → False := fun j h4 h5 => by
      have h6 := hall ⟨min j 57, by omega⟩
      have h7 : Conn.run small (answered.take (min j 57)) (Conn.init small) = some (st j) := by
        rw [← h2 j]
        rcases Nat.le_total j 57 with hj | hj
        · rw [Nat.min_eq_left hj]
        · rw [Nat.min_eq_right hj, List.take_of_length_le (by omega), List.take_of_length_le (by omega)]
      rw [h7] at h6
      simp [h4, h5] at h6
    cases c with
    | zero => exact hz k hw hc
    | succ c =>
      have h4 := h1.exec.keep (I := fun s => (s.calls (c + 1)).pc ≠ .absent) (n := k) (fun m _ a _ ht hi => by
        generalize st (m + 1) = s' at ht
        cases ht <;> simp only [State.set] <;> grind) (by rw [hc]; simp) (max k 57) (Nat.le_max_left _ _)
      have h5 := h2 (max k 57)
      rw [List.take_of_length_le (by omega)] at h5
      refine h4 ?_
      generalize st (max k 57) = s at h5
      cases h5; rfl

/-- `messageLoop` waits, then the reply comes. -/
def prompt : List Act :=
  callDo 0 ++ [.message] ++ List.replicate 5 (.ring .r) ++ [.read [0, 0, 0, 4, 0, 0, 0, 1]] ++ List.replicate 12 (.ring .w) ++
    [.ring .handR, .readNext] ++ List.replicate 6 (.ring .r) ++ [.message] ++ List.replicate 8 (.ring .r) ++
    List.replicate 7 .message ++ [.call 0, .message] ++ List.replicate 5 (.ring .r)

/-- Non-trivial instance of `C51_prompt_partial`. -/
theorem prompt_example : ∃ st act, Steady small st act ∧ ∃ m data, act m = some (.read data) ∧ 2 ≤ data.length ∧
    (st m).ring.rpc = .waitSend ∧ (st (m + 1)).received.length + 1 < (st (m + 1)).ring.got.length + small.ring ∧
    ((st (m + 1)).calls 0).pc = .recv ∧ ((st (m + 1)).calls 0).id = 1 ∧ [0, 0, 0, 1] ∈ pending (st (m + 1)) := by
  obtain ⟨st, act, h1, h2, h3⟩ := steady_of_check (as := prompt) (by decide +kernel)
    (fun s hs => by cases hs; exact fun _ => rfl) (fun s hs => by cases hs; exact fun _ => rfl) (by decide +kernel)
  have h0 : ((Conn.run small (prompt.take 17) (Conn.init small)).map fun s => decide (s.ring.rpc = .waitSend)) = some true := by
    decide +kernel
  have h : ((Conn.run small (prompt.take 18) (Conn.init small)).map fun s =>
      ((s.calls 0).pc matches .recv) && decide ((s.calls 0).id = 1) && decide (s.received = [0, 0, 0, 4, 0, 0, 0, 1]) &&
        decide (s.frames = []) && decide (s.ring.got.length = 0)) = some true := by decide +kernel
  rw [h2] at h h0
  have h := Option.some.inj h
  simp only [Bool.and_eq_true, decide_eq_true_eq] at h
  obtain ⟨⟨⟨⟨g1, g2⟩, g3⟩, g4⟩, g5⟩ := h
  refine ⟨st, act, h1, 17, _, by rw [h3]; rfl, by decide, of_decide_eq_true (Option.some.inj h0), ?_, ?_, g2, ?_⟩
  · show (st 18).received.length + 1 < (st 18).ring.got.length + 16
    rw [g3, g5]; decide
  · split at g1
    · assumption
    · cases g1
  · unfold pending
    rw [g3, g4]
    show _ ∈ splitStream _
    have e : splitStream [0, 0, 0, 4, 0, 0, 0, 1] = [0, 0, 0, 1] :: splitStream [] :=
      splitStream_frame 4 [0, 0, 0, 1] [] (by decide)
    rw [e]
    simp

/-- The bytes of the reply trickle in, then two bytes come together. -/
def trickleThenTwo : List Act :=
  trickle ++ [.read [0, 0]] ++ List.replicate 6 (.ring .w) ++ [.ring .handR, .readNext] ++ List.replicate 6 (.ring .r) ++
    [.message] ++ List.replicate 8 (.ring .r) ++ List.replicate 7 .message ++ [.call 0, .message] ++
    List.replicate 8 (.ring .r)

set_option maxRecDepth 4000 in
/-- Non-trivial instance of `C51_fair_woken_partial`: `messageLoop` waits although the reply is there, and two bytes come. -/
theorem woken_example : ∃ st act, Steady small st act ∧ ∃ n, (st n).ring.rpc = .waitSend ∧
    ((st n).calls 0).pc = .recv ∧ ((st n).calls 0).id = 1 ∧ [0, 0, 0, 1] ∈ visible (st n) ∧
    ∃ m data, n ≤ m ∧ act m = some (.read data) ∧ 2 ≤ data.length := by
  obtain ⟨st, act, h1, h2, h3⟩ := steady_of_check (as := trickleThenTwo) (by decide +kernel)
    (fun s hs => by cases hs; exact fun _ => rfl) (fun s hs => by cases hs; exact fun _ => rfl) (by decide +kernel)
  refine ⟨st, act, h1, 65, ?_⟩
  have h : ((Conn.run small (trickleThenTwo.take 65) (Conn.init small)).map fun s => atReply s .waitSend) = some true := by
    decide +kernel
  rw [h2] at h
  obtain ⟨g1, g2, g3, g4⟩ := atReply_spec (Option.some.inj h)
  exact ⟨g1, g2, g3, g4, 65, [0, 0], Nat.le_refl _, by rw [h3]; rfl, Nat.le_refl _⟩

end Kafka.Props
