import Verif.Conn.Whole
import Verif.Props.Calls
/-!
Property C66: frames that arrive whole are read as they are.
-/
set_option linter.unusedSimpArgs false

namespace Kafka.Props

open Conn

/-- Every `raw.Read` returns whole frames, which fit into what is free of the ring buffer, and nobody calls `Close`. -/
def WholeReads (P : Params) (s : Conn.State) : Act → Prop
  | .read data => (∃ fs, Parsed fs data) ∧ s.received.length + data.length + 2 ≤ s.ring.rel + P.ring
  | .close _ => False
  | _ => True

/-- `messageLoop` does not begin to wait for the ring buffer while `readLoop`, in `WriteN`, has published what it brings and
has not yet looked whether anybody waits. -/
def NoOverlap (s : Conn.State) : Act → Prop
  | .ring .r => s.ring.rpc = .waitCas → s.ring.wpc ≠ .frelCas
  | _ => True

section
variable {P : Params}

theorem good_of (hN : 2 ≤ P.ring) (hP : 4 ≤ P.buf) {s : Conn.State} (hr : Conn.Reach P (PacedConn P) s)
    (hk : ∀ k, s.closers k = .absent) (hc : s.crashed = false) : Good P s := by
  have hring : Ring.Reach P.ring (Ring.Paced P.ring) s.ring := hr.ring (fun _ _ h => h) (fun r a ha => by
    cases a <;> simp [inRing] at ha <;> trivial)
  obtain ⟨h1, h2, h3⟩ := open_inv hr hk
  have hany : Conn.Reach P Conn.Any s := by
    clear hk hc hring h1 h2 h3
    induction hr with
    | init => exact .init
    | step a _ _ hs ih => exact ih.step a trivial hs
  exact ⟨hany, hr.stream hP, hring.pos (by omega), hring.fifo hN (fun _ _ h => h), hring.calls, hring.pair h1,
    hring.looked hN, h1, h2, hc⟩

/-- A reader that waits has not read the whole of the frame it is in. -/
theorem _root_.Kafka.Conn.Good.inside {s : Conn.State} (h : Good P s) (hp : s.ring.rpc = .waitSend) {fs : List (List Byte)}
    (hfs : Parsed fs s.ring.got) : fs.length ≤ s.frames.length := by
  have hpre := h.got_pre
  have hidle : s.ring.rpc ≠ .idle := by rw [hp]; simp
  have htk := h.calls.taken
  rw [hp] at htk
  have hri := h.calls.rbody (by rw [hp]; rfl)
  have hrl := h.calls.rlen
  refine Nat.le_of_not_lt fun hl => ?_
  have key : ∀ bs, Parsed s.frames bs → bs <+: s.ring.got →
      ∃ w g, g.length = w.toInt.toNat ∧ bs ++ Wire.int32 w ++ g <+: s.ring.got := fun bs hb hbp =>
    hb.next hfs (hbp.trans hpre) hpre hl
  have hm : s.mpc = .inHead ∨ ∃ size, s.mpc = .inBody size := Classical.byContradiction fun ho =>
    hidle (h.stream.out fun size => ⟨fun hx => ho (.inl hx), fun hx => ho (.inr ⟨size, hx⟩)⟩).1
  obtain hm | ⟨size, hm⟩ := hm
  · obtain ⟨bs, h1, h2, h3⟩ := h.stream.head hm
    rw [if_neg hidle, List.append_nil] at h3
    rw [h3] at htk
    obtain ⟨w, g, _, h6⟩ := key bs h1 (by rw [htk]; exact List.prefix_append _ _)
    have h7 := h6.length_le
    have h8 := congrArg List.length htk
    simp only [List.length_append, int32_len, List.length_take, Ring.RPc.read] at h7 h8
    omega
  · obtain ⟨bs, w, h1, h2, h3, h5⟩ := h.stream.body size hm
    rw [if_neg hidle, List.append_nil] at h5
    rw [h5] at htk
    have h8 := congrArg List.length htk
    simp only [List.length_append, int32_len, List.length_take, Ring.RPc.read] at h8
    obtain ⟨w', g, h6, h7⟩ := key bs h1 (by rw [htk, List.append_assoc]; exact List.prefix_append _ _)
    have h9 := h7.length_le
    rw [htk] at h7
    have hw : w = w' := by
      obtain ⟨x, hx⟩ := h7
      simp only [List.append_assoc, List.append_cancel_left_eq] at hx
      exact int32_inj (List.append_inj hx (by simp [int32_len])).1.symm
    subst hw
    simp only [List.length_append, int32_len] at h9
    omega

/-- What a reader that waits has read is whole frames. -/
theorem _root_.Kafka.Conn.Good.gotBound {s : Conn.State} (h : Good P s) (hw : Ring.Whole P.ring s.received (s.mpc = .inHead) s.ring)
    (hp : s.ring.rpc = .waitSend) : Bound s.received s.ring.got.length ∧ ∃ fs, Parsed fs s.ring.got := by
  have hrpub := h.looked.empty (by rw [hp]; rfl)
  have hb : Bound s.received s.ring.got.length := by rw [← hrpub]; exact hw.rpub (by rw [hp]; rfl)
  obtain ⟨_, fs, hfs⟩ := id hb
  rw [(List.prefix_iff_eq_take.1 h.got_pre).symm] at hfs
  exact ⟨hb, fs, hfs⟩

/-- A reader that waits, and to which something is published, is at the start of a frame. -/
theorem _root_.Kafka.Conn.Good.atHead {s : Conn.State} (h : Good P s) (hw : Ring.Whole P.ring s.received (s.mpc = .inHead) s.ring)
    (hp : s.ring.rpc = .waitSend) (hlt : s.ring.got.length < s.ring.pub) :
    s.mpc = .inHead ∧ s.ring.taken.length + 4 ≤ s.ring.pub := by
  obtain ⟨hb, fs, hfs⟩ := h.gotBound hw hp
  have h4 := hb.lt hw.pub hlt
  have hpre := h.got_pre
  have hidle : s.ring.rpc ≠ .idle := by rw [hp]; simp
  have htk := h.calls.taken
  rw [hp] at htk
  have hl := h.inside hp hfs
  have key : ∀ bs, Parsed s.frames bs → bs <+: s.ring.got → s.ring.got.length ≤ bs.length := fun bs hb hbp => by
    obtain ⟨t, h1, h2⟩ := hb.take fs.length
    have h3 := (h1.det hfs ((h2.trans hbp).trans hpre) hpre (by rw [List.length_take]; omega)).2
    rw [h3] at h2
    exact h2.length_le
  have hm : s.mpc = .inHead ∨ ∃ size, s.mpc = .inBody size := Classical.byContradiction fun ho =>
    hidle (h.stream.out fun size => ⟨fun hx => ho (.inl hx), fun hx => ho (.inr ⟨size, hx⟩)⟩).1
  obtain hm | ⟨size, hm⟩ := hm
  · refine ⟨hm, ?_⟩
    obtain ⟨bs, h1, h2, h3⟩ := h.stream.head hm
    rw [if_neg hidle, List.append_nil] at h3
    rw [h3] at htk ⊢
    have := key bs h1 (by rw [htk]; exact List.prefix_append _ _)
    have := congrArg List.length htk
    rw [List.length_append] at this
    omega
  · exfalso
    obtain ⟨bs, w, h1, h2, h3, h5⟩ := h.stream.body size hm
    rw [if_neg hidle, List.append_nil] at h5
    rw [h5] at htk
    have h8 := congrArg List.length htk
    simp only [List.length_append, int32_len, List.length_take, Ring.RPc.read] at h8
    have := key bs h1 (by rw [htk, List.append_assoc]; exact List.prefix_append _ _)
    omega

/-- A reader for which a frame is there has something to read. -/
theorem _root_.Kafka.Conn.Good.unread {s : Conn.State} (h : Good P s) (hw : Ring.Whole P.ring s.received (s.mpc = .inHead) s.ring)
    (hp : s.ring.rpc = .waitSend) {p : List Byte} (hv : p ∈ visible s) : s.ring.got.length < s.ring.pub := by
  obtain ⟨hb, fs, hfs⟩ := h.gotBound hw hp
  refine Nat.lt_of_not_le fun hle => ?_
  have hl := h.inside hp hfs
  obtain ⟨t, h1, h2⟩ := Parsed.of_split (s.received.take s.ring.pub)
  have hlen : fs.length < (splitStream (s.received.take s.ring.pub)).length := by
    have := List.length_pos_of_mem hv
    rw [visible, List.length_drop] at this
    omega
  have hpre := h.got_pre
  obtain ⟨w, g, _, h3⟩ := hfs.next h1 hpre (h2.trans (List.take_prefix _ _)) hlen
  have := (h3.trans h2).length_le
  simp only [List.length_append, int32_len, List.length_take] at this
  omega

/-- Such a reader only goes on when there is something to read. -/
theorem _root_.Kafka.Conn.Good.whole_paced {s : Conn.State} (hg : Good P s) (h3 : Ring.Whole P.ring s.received (s.mpc = .inHead) s.ring) (a : Act) :
    PacedConn P s a := by
  unfold PacedConn
  split
  · rename_i b
    unfold Ring.Paced
    split
    · intro hx; rw [h3.wres] at hx; cases hx
    · intro hx hy
      obtain ⟨h4, h5⟩ := h3.get hx hy
      obtain ⟨bs, _, h6, _⟩ := hg.stream.head h4
      have h7 := congrArg List.length hg.calls.taken
      have h8 := hg.calls.rbody (by rw [hy]; rfl)
      rw [hy, List.length_append, List.length_take] at h7
      simp only [Ring.RPc.read] at h7
      show s.ring.got.length < s.ring.pub
      omega
    · trivial
  · trivial

/-- Such schedules are among those of C25. -/
theorem whole_paced (hN : 6 ≤ P.ring) (hP : 4 ≤ P.buf) {s : Conn.State}
    (h : Conn.Reach P (fun s a => WholeReads P s a ∧ NoOverlap s a) s) :
    Conn.Reach P (PacedConn P) s ∧ (∀ k, s.closers k = .absent) ∧ Ring.Whole P.ring s.received (s.mpc = .inHead) s.ring := by
  induction h with
  | init =>
    refine ⟨.init, fun _ => rfl, ?_⟩
    exact ⟨.inl rfl, rfl, by simp [Conn.init, Ring.init], by show 0 + 2 ≤ 0 + P.ring; omega, by simp [Conn.init, Ring.init], ⟨Nat.le_refl _, [], .nil⟩,
      ⟨Nat.le_refl _, [], .nil⟩, by simp [Conn.init, Ring.init], by simp [Conn.init, Ring.init, Ring.RPc.looping], by simp [Conn.init, Ring.init], by simp [Conn.init, Ring.init]⟩
  | @step s s' a hr hok hs ih =>
    obtain ⟨h1, h2, h3⟩ := ih
    have hc : s.crashed = false := by
      cases hx : s.crashed with
      | false => rfl
      | true => simp [Conn.step, hx] at hs
    have hg := good_of (by omega) hP h1 h2 hc
    have hpaced : PacedConn P s a := hg.whole_paced h3 a
    refine ⟨h1.step a hpaced hs, ?_⟩
    obtain ⟨i1, i2, i3, i4, i5, i6, i7, i8, i9, i10, i11⟩ := id h3
    have hout := hg.stream.out
    have hat := hg.atHead h3
    have ht := step_trans hs
    have still : ∀ hd : Prop, (∀ size, s.mpc ≠ .inHead ∧ s.mpc ≠ .inBody size) ∨ s.ring.rpc = .idle →
        Ring.Whole P.ring s.received hd s.ring := fun hd hx => by
      have hi : s.ring.rpc = .idle := hx.elim (fun h => (hout h).1) id
      exact ⟨i1, i2, i3, i4, i5, i6, i7, i8, i9, i10, fun _ h => by rw [hi] at h; cases h⟩
    clear hs hpaced
    cases ht
    case ring b r hb hr =>
      refine ⟨h2, ?_⟩
      exact h3.step hN hg.pos hg.fifo hg.calls hg.pair hg.closed hg.stream.given hb (fun hx => by subst hx; exact hok.2)
        hat hr
    case read data r _ _ _ hr =>
      refine ⟨h2, ?_⟩
      obtain ⟨hw, _, rfl⟩ := ring_callW hr
      obtain ⟨⟨fs, hfs⟩, hroom⟩ := hok.1
      have hp := hg.pos.wpub (by rw [hw]; rfl)
      have hgl := congrArg List.length hg.calls.given
      rw [hg.stream.given, hw] at hgl
      simp only [Ring.WPc.wrote, List.length_append, List.length_drop, List.length_take] at hgl
      refine ⟨.inr (.inl rfl), i2, by simp, ?_, by simp, ⟨Nat.le_refl _, ?_⟩, i7.append data, fun _ => ?_,
        fun hx => (i9 hx).append data, by simp, i11⟩
      · show (s.received ++ data).length + 2 ≤ _
        rw [List.length_append]; exact hroom
      · obtain ⟨_, gs, hgs⟩ := i6
        rw [List.take_length] at hgs ⊢
        exact ⟨_, hgs.append hfs⟩
      · show s.ring.pub + data.length = (s.received ++ data).length
        rw [List.length_append]
        omega
    case head r hm _ hr =>
      refine ⟨h2, ?_⟩
      obtain ⟨_, _, rfl⟩ := ring_callR hr
      exact ⟨i1, i2, i3, i4, i5, i6, i7, i8, by simp [Ring.RPc.looping], by simp, by simp⟩
    case body size r hm hi _ hr =>
      refine ⟨h2, ?_⟩
      obtain ⟨_, _, rfl⟩ := ring_callR hr
      exact ⟨i1, i2, i3, i4, i5, i6, i7, i8, by simp [Ring.RPc.looping], by simp, by simp⟩
    case closing => exact hok.1.elim
    case cancel => exact hok.1.elim
    case rbClose => exact hok.1.elim
    case rawClose => exact hok.1.elim
    case waitMessage => exact hok.1.elim
    case waitRead => exact hok.1.elim
    all_goals
      refine ⟨h2, ?_⟩
      first
        | exact h3
        | exact still _ (.inr (by assumption))
        | exact still _ (.inl fun size => by simp_all)

theorem Parsed.small {fs : List (List Byte)} {bs : List Byte} (h : Parsed fs bs) : ∀ f ∈ fs, f.length + 4 ≤ bs.length := by
  induction h with
  | nil => simp
  | snoc v g _ hg ih =>
    intro f hf
    simp only [List.length_append, int32_len]
    rcases List.mem_append.1 hf with hf | hf
    · have := ih f hf; omega
    · simp only [List.mem_singleton] at hf; subst hf; omega

/-- The frames are not longer than the buffer of `readLoop`. -/
theorem whole_small {ok : Conn.State → Act → Prop} {s : Conn.State} (h : Conn.Reach P (fun s a => WholeReads P s a ∧ ok s a) s) :
    ∃ fs, Parsed fs s.received ∧ ∀ f ∈ fs, f.length + 4 ≤ P.buf := by
  refine h.inv (I := fun s => ∃ fs, Parsed fs s.received ∧ ∀ f ∈ fs, f.length + 4 ≤ P.buf) ⟨[], .nil, by simp⟩ ?_
  intro s s' a _ hi hok ht
  cases ht
  case read data r _ _ hl hr =>
    obtain ⟨fs, h1, h2⟩ := hi
    obtain ⟨gs, hgs⟩ := hok.1.1
    refine ⟨fs ++ gs, h1.append hgs, fun f hf => ?_⟩
    rcases List.mem_append.1 hf with hf | hf
    · exact h2 f hf
    · have := Parsed.small hgs f hf; omega
  all_goals exact hi

/-- `messageLoop` does not begin to wait for the ring buffer while there is something in it that it has not read, nor while
`readLoop`, in `WriteN`, has published what it brings and has not yet looked whether anybody waits. -/
def Synced (s : Conn.State) : Act → Prop
  | .ring .r => s.ring.rpc = .waitCas → s.ring.wpc ≠ .frelCas ∧ s.ring.got.length = s.ring.pub
  | _ => True

theorem synced_noOverlap {s : Conn.State} (h : Conn.Reach P (fun s a => WholeReads P s a ∧ Synced s a) s) :
    Conn.Reach P (fun s a => WholeReads P s a ∧ NoOverlap s a) s := by
  induction h with
  | init => exact .init
  | step a _ hok hs ih =>
    refine ih.step a ⟨hok.1, ?_⟩ hs
    have := hok.2
    unfold Synced at this
    unfold NoOverlap
    split
    · exact fun hx => (this hx).1
    · trivial

/-- A reader for which there is something while it waits is about to be woken. -/
theorem whole_rung (hN : 6 ≤ P.ring) (hP : 4 ≤ P.buf) {s : Conn.State}
    (h : Conn.Reach P (fun s a => WholeReads P s a ∧ Synced s a) s) : Ring.Rung s.ring := by
  induction h with
  | init => intro h; cases h
  | @step s s' a hr hok hs ih =>
    obtain ⟨h1, h2, h3⟩ := whole_paced hN hP (synced_noOverlap hr)
    have hc : s.crashed = false := by
      cases hx : s.crashed with
      | false => rfl
      | true => simp [Conn.step, hx] at hs
    have hg := good_of (by omega) hP h1 h2 hc
    have ht := step_trans hs
    clear hs
    cases ht
    case ring b r hb hr =>
      exact ih.step h3 hg.calls hg.pair hg.closed hg.stream.given hb (fun hx hy => by subst hx; exact (hok.2 hy).2) hr
    case read data r _ _ _ hr =>
      obtain ⟨hw, _, rfl⟩ := ring_callW hr
      intro h4 h5
      have := (ih h4 h5).1
      simp [hw] at this
    case head r hm _ hr =>
      obtain ⟨_, _, rfl⟩ := ring_callR hr
      intro h4; cases h4
    case body size r hm hi _ hr =>
      obtain ⟨_, _, rfl⟩ := ring_callR hr
      intro h4; cases h4
    case rbClose => exact hok.1.elim
    all_goals exact ih

/-- The schedule of an execution is of a certain kind. -/
def Always (P : Params) (ok : Conn.State → Act → Prop) (st : Nat → Conn.State) (act : Nat → Option Act) : Prop :=
  Conn.Reach P ok (st 0) ∧ ∀ m a, act m = some a → ok (st m) a

theorem Always.reach {ok : Conn.State → Act → Prop} {st : Nat → Conn.State} {act : Nat → Option Act} (h : Always P ok st act)
    (he : Exec P st act) : ∀ n, Conn.Reach P ok (st n)
  | 0 => h.1
  | n + 1 => by
    cases ha : act n with
    | none => rw [he.none n ha]; exact h.reach he n
    | some a => exact (h.reach he n).step a (h.2 n a ha) (he.some n a ha)

/-- A call to a broker that answers in whole frames returns, if `messageLoop` does not begin to wait while there is something
for it. -/
theorem C65_whole_partial (hN : 6 ≤ P.ring) (hP : 4 ≤ P.buf) :
    C65_statement P (fun st act _ => Always P (fun s a => WholeReads P s a ∧ Synced s a) st act) := by
  intro st act he hf hcr hclo hcnt ha n c hat hs hans
  have hwp := fun m => whole_paced hN hP (synced_noOverlap (hat.reach he m))
  have hgood := fun m => good_of (by omega) hP (hwp m).1 (hclo m) (hcr m)
  have h : Steady P st act := ⟨he, hf, (hwp 0).1, fun m a _ => (hgood m).whole_paced (hwp m).2.2 a, hcr, hclo, hcnt⟩
  rcases C65_returns (by omega) hP h ha hs hans with hr | ⟨k, p, hk, _, h1, h2⟩
  · exact hr
  exfalso
  rcases h2 with h2 | h2
  · have hrd := (h1 k (Nat.le_refl k)).2.1
    have hlt := (hgood k).unread (hwp k).2.2 hrd (h2 k (Nat.le_refl k)).1
    obtain ⟨h3, h4, h5⟩ := whole_rung hN hP (hat.reach he k) hrd hlt
    refine h.rings (by omega) hP (n := k) ⟨?_, h4, ?_, .inr (.inr h5)⟩ fun m hm => (h1 m hm).2.1
    · refine Classical.byContradiction fun hl => ?_
      have := (he.reach k).writer hl
      rw [this] at h3
      simp at h3
    · rcases h3 with h3 | h3 <;> simp [h3]
  · have h3 := (h2 k (Nat.le_refl k)).2.1
    have := (hwp k).2.2.wpc
    rw [h3] at this
    simp at this

/-! ## C66: frames that arrive whole are read as they are -/

/-- The full claim: when every `raw.Read` returns whole frames that fit into what is free of the ring buffer, and nobody
calls `Close`, then the frames read are those that were sent, every reply returned is one that was sent with the id of the
call, and there is no panic but in the decode function of the call that is answered. -/
def C66_statement (P : Params) (ok : Conn.State → Act → Prop) : Prop :=
  ∀ s, Conn.Reach P (fun s a => WholeReads P s a ∧ ok s a) s →
    s.frames <+: splitStream s.received ∧
    (∀ c d, (s.calls c).pc = .done (.reply d) →
      ∃ p ∈ splitStream s.received, Wire.int32 (s.calls c).id <+: p ∧ Given P.buf p d) ∧
    (s.crashed = true → ∃ d c, s.mpc = .decode d c ∧ (s.calls c).job.panics d = true)

/-- It holds if `messageLoop` does not begin to wait between the two steps in which `readLoop` publishes what it has read and
looks whether anybody waits.  Missing for the full claim: schedules in which it does. -/
theorem C66_partial (hN : 6 ≤ P.ring) (hP : 4 ≤ P.buf) : C66_statement P NoOverlap := by
  intro s h
  obtain ⟨h1, h2, h3⟩ := whole_paced hN hP h
  refine ⟨C37_partial (by omega) hP s h1, C54_partial (by omega) hP s h1, fun hc => ?_⟩
  have hany : Conn.Reach P Conn.Any s := by
    clear h1 h2 h3 hc
    induction h with
    | init => exact .init
    | step a _ _ hs ih => exact ih.step a trivial hs
  rcases C38_partial hP hany hc with ⟨size, hm, hlt⟩ | hd
  · exfalso
    obtain ⟨fs, h4, h5⟩ := whole_small h
    have hring : Ring.Reach P.ring (Ring.Paced P.ring) s.ring := h1.ring (fun _ _ h => h) (fun r a ha => by
      cases a <;> simp [inRing] at ha <;> trivial)
    have hst := h1.stream hP
    have hpre : s.ring.taken <+: s.received := by
      have hf := hring.fifo (by omega) (fun _ _ h => h)
      have hc := hring.calls
      rw [← hst.given, hc.given]
      exact ((by rw [hc.taken]; exact List.prefix_append _ _ : s.ring.taken <+: s.ring.got).trans hf.pre).trans
        (List.prefix_append _ _)
    obtain ⟨bs, v, h6, rfl, _, h7⟩ := hst.body size hm
    have hpre' : bs ++ Wire.int32 v <+: s.received := (by rw [h7]; exact List.prefix_append _ _ : _ <+: s.ring.taken).trans hpre
    have hbs : bs <+: s.received := (List.prefix_append _ _).trans hpre'
    have hl : s.frames.length < fs.length := by
      refine Nat.lt_of_not_le fun hle => ?_
      obtain ⟨t, h8, h9⟩ := h6.take fs.length
      have h10 := (h8.det h4 (h9.trans hbs) (List.prefix_refl _) (by rw [List.length_take]; omega)).2
      rw [h10] at h9
      have := h9.length_le
      have := hpre'.length_le
      rw [List.length_append, int32_len] at this
      omega
    obtain ⟨t, h8, h9⟩ := h4.take (s.frames.length + 1)
    have hlen : (fs.take (s.frames.length + 1)).length = s.frames.length + 1 := by rw [List.length_take]; omega
    have hmem : ∀ f ∈ fs.take (s.frames.length + 1), f.length + 4 ≤ P.buf := fun f hf => h5 f (List.mem_of_mem_take hf)
    generalize fs.take (s.frames.length + 1) = ks at h8 hlen hmem
    cases h8 with
    | nil => simp at hlen
    | @snoc ks cs w f h10 hf =>
      have hcs : cs <+: s.received := ((by simp : cs <+: cs ++ Wire.int32 w ++ f).trans h9)
      obtain ⟨_, rfl⟩ := h6.det h10 hbs hcs (by simpa using hlen.symm)
      have : v = w := by
        obtain ⟨x, hx⟩ := h9
        obtain ⟨y, hy⟩ := hpre'
        rw [← hx] at hy
        simp only [List.append_assoc, List.append_cancel_left_eq] at hy
        exact int32_inj (List.append_inj hy (by simp [int32_len])).1
      subst this
      have := hmem f (by simp)
      omega
  · exact hd

end

/-- A call is made and answered in one piece.  `readLoop` has published the reply and has not yet looked whether anybody
waits; `messageLoop` reads it, the call returns, `messageLoop` waits for the next frame; now `readLoop` looks, and wakes it. -/
def staleWake : List Act :=
  callDo 0 ++ [.read [0, 0, 0, 4, 0, 0, 0, 1]] ++ List.replicate 11 (.ring .w) ++ [.message] ++ List.replicate 8 (.ring .r) ++
  [.message] ++ List.replicate 8 (.ring .r) ++ List.replicate 7 .message ++ [.call 0, .message] ++ List.replicate 5 (.ring .r) ++
  [.ring .w, .ring .handR] ++ List.replicate 6 (.ring .r) ++ [.message] ++ List.replicate 3 (.ring .r) ++ [.message]

/-- The claim is false at every size, with one call and one reply in one piece: `messageLoop` is woken although nothing has
come, and reads a frame that was never sent. -/
theorem C66_fails {P : Params} (hN : 16 ≤ P.ring) (hP : 8 ≤ P.buf) : ¬C66_statement P (fun _ _ => True) := by
  obtain ⟨N, B⟩ := P
  obtain ⟨M, rfl⟩ := Nat.exists_eq_add_of_le' hN
  obtain ⟨B, rfl⟩ := Nat.exists_eq_add_of_le' hP
  have ew : Wire.int32 1 = [0, 0, 0, 1] := by rw [wire_int32]; rfl
  have hs4 : headSize (0#8 :: 0#8 :: 0#8 :: 4#8 :: 0#8 :: 0#8 :: 0#8 :: 0#8 :: List.replicate B 0#8) = some 4 := rfl
  have hr4 : room (0#8 :: 0#8 :: 0#8 :: 4#8 :: 0#8 :: 0#8 :: 0#8 :: 0#8 :: List.replicate B 0#8) 4 =
      0#8 :: 0#8 :: 0#8 :: 4#8 :: 0#8 :: 0#8 :: 0#8 :: 0#8 :: List.replicate B 0#8 :=
    if_neg (by simp only [List.length_cons, List.length_replicate]; omega)
  have hpar : ∃ fs, Parsed fs [0, 0, 0, 4, 0, 0, 0, 1] := ⟨_, by
    have := Parsed.snoc 4 [0, 0, 0, 1] .nil (by decide)
    rw [wire_int32] at this
    exact this⟩
  have h : ∃ s, Conn.Reach ⟨M + 16, B + 8⟩ (fun s a => WholeReads ⟨M + 16, B + 8⟩ s a ∧ True) s ∧
      s.received = [0, 0, 0, 4, 0, 0, 0, 1] ∧ s.frames = [[0, 0, 0, 1], []] := by
    refine RunsTo.reach (as := staleWake) .init ?_
    unfold staleWake callDo Conn.init Ring.init sampleJob
    simp only [List.replicate, List.cons_append, List.nil_append]
    iterate 11 refine ⟨⟨trivial, trivial⟩, _, (by simp [Conn.step, callStep, State.set, upd, ew]; rfl), ?_⟩
    refine ⟨⟨⟨hpar, by show 0 + 8 + 2 ≤ 0 + (M + 16); omega⟩, trivial⟩, _, (by
      simp [Conn.step, inRing, Ring.step, Ring.wStep, Ring.wLoop, Ring.wReturn, Ring.incr]; rfl), ?_⟩
    iterate 11 refine ⟨⟨trivial, trivial⟩, _, (by
      simp [Conn.step, inRing, Ring.step, Ring.wStep, Ring.wLoop, Ring.wReturn, Ring.incr]; rfl), ?_⟩
    iterate 9 refine ⟨⟨trivial, trivial⟩, _, (by
      simp [Conn.step, messageStep, readN, inRing, Ring.step, Ring.rStep, Ring.rLoop, Ring.rReturn, Ring.incr, List.replicate_succ]; rfl), ?_⟩
    refine ⟨⟨trivial, trivial⟩, _, (by simp [Conn.step, messageStep, readN, hs4, hr4, Ring.step]; rfl), ?_⟩
    iterate 8 refine ⟨⟨trivial, trivial⟩, _, (by
      simp [Conn.step, messageStep, readN, inRing, Ring.step, Ring.rStep, Ring.rLoop, Ring.rReturn, Ring.incr, List.replicate_succ]; rfl), ?_⟩
    iterate 7 refine ⟨⟨trivial, trivial⟩, _, (by simp [Conn.step, messageStep, upd, State.set]; rfl), ?_⟩
    refine ⟨⟨trivial, trivial⟩, _, (by simp [Conn.step, callStep, upd, State.set]; rfl), ?_⟩
    iterate 6 refine ⟨⟨trivial, trivial⟩, _, (by
      simp [Conn.step, messageStep, readN, inRing, Ring.step, Ring.rStep, Ring.rLoop, Ring.rReturn, Ring.incr]; rfl), ?_⟩
    iterate 2 refine ⟨⟨trivial, trivial⟩, _, (by
      simp [Conn.step, inRing, Ring.step, Ring.wStep, Ring.rWaited, Ring.wReturn]; rfl), ?_⟩
    iterate 10 refine ⟨⟨trivial, trivial⟩, _, (by
      simp [Conn.step, messageStep, readN, inRing, Ring.step, Ring.rStep, Ring.rLoop, Ring.rReturn, Ring.incr]; rfl), ?_⟩
    refine ⟨⟨trivial, trivial⟩, _, (by simp [Conn.step, messageStep]; rfl), ?_⟩
    exact ⟨rfl, rfl⟩
  intro h0
  obtain ⟨s, h1, h2, h3⟩ := h
  have h4 := (h0 s h1).1
  have e : splitStream [0, 0, 0, 4, 0, 0, 0, 1] = [0, 0, 0, 1] :: splitStream [] :=
    splitStream_frame 4 [0, 0, 0, 1] [] (by decide)
  have e0 : splitStream [] = [] := by rw [splitStream.eq_def]
  rw [h2, h3, e, e0] at h4
  have := h4.length_le
  simp at this

/-! ## Examples -/

/-- A schedule that runs through, and after which nothing can go on, followed by nothing for ever. -/
theorem exec_of_runs_act {P : Params} {ok : Conn.State → Act → Prop} {p : Conn.State → Prop} {as : List Act} {s0 : Conn.State}
    (h0 : Conn.Reach P ok s0) (h : RunsTo P ok p as s0) (hp : ∀ s, p s → ∀ q, ¬CanGo P s q) :
    ∃ st act, st 0 = s0 ∧ Exec P st act ∧ Fair P st act ∧ Always P ok st act ∧ (∀ m, as.length ≤ m → p (st m)) ∧
      ∀ m, act m = as[m]? := by
  have hany : Conn.Reach P Conn.Any s0 := by
    clear h
    induction h0 with
    | init => exact .init
    | step a _ _ hs ih => exact ih.step a trivial hs
  have hrun : ∀ (as : List Act) (s0 : Conn.State), RunsTo P ok p as s0 → ∃ s, Conn.run P as s0 = some s ∧ p s ∧
      ∀ m a s', as[m]? = some a → Conn.run P (as.take m) s0 = some s' → ok s' a := by
    intro as
    induction as with
    | nil => exact fun s0 h => ⟨s0, rfl, h, fun m a s' ha => by simp at ha⟩
    | cons b as ih =>
      intro s0 ⟨h1, s1, h2, h3⟩
      obtain ⟨s, h4, h5, h6⟩ := ih s1 h3
      refine ⟨s, by simp [Conn.run, h2, h4], h5, fun m a s' ha hr => ?_⟩
      cases m with
      | zero =>
        simp only [List.take_zero, Conn.run, Option.some.injEq] at hr
        simp only [List.getElem?_cons_zero, Option.some.injEq] at ha
        subst hr ha; exact h1
      | succ m =>
        simp only [List.take_succ_cons, Conn.run, h2, Option.bind_some] at hr
        exact h6 m a s' (by simpa using ha) hr
  obtain ⟨s, h1, h2, h3⟩ := hrun as s0 h
  obtain ⟨st, act, h4, h5, h6, h7⟩ := fair_of_run_act hany h1 (hp s h2)
  have hz : st 0 = s0 := by
    have := h6 0
    simp only [List.take_zero, Conn.run, Option.some.injEq] at this
    exact this.symm
  refine ⟨st, act, hz, h4, h5, ⟨by rw [hz]; exact h0, fun m a ha => h3 m a _ (by rw [← h7, ha]) (h6 m)⟩, fun m hm => ?_, h7⟩
  have := h6 m
  rw [List.take_of_length_le hm, h1] at this
  rw [← Option.some.inj this]
  exact h2

theorem exec_of_runs {P : Params} {ok : Conn.State → Act → Prop} {p : Conn.State → Prop} {as : List Act} {s0 : Conn.State}
    (h0 : Conn.Reach P ok s0) (h : RunsTo P ok p as s0) (hp : ∀ s, p s → ∀ q, ¬CanGo P s q) :
    ∃ st act, st 0 = s0 ∧ Exec P st act ∧ Fair P st act ∧ Always P ok st act ∧ ∀ m, as.length ≤ m → p (st m) := by
  obtain ⟨st, act, h1, h2, h3, h4, h5, _⟩ := exec_of_runs_act h0 h hp
  exact ⟨st, act, h1, h2, h3, h4, h5⟩

/-- One call has been made; `readLoop` waits for the network, `messageLoop` in `ReadN`: nothing can go on. -/
structure AtRest (s : Conn.State) : Prop where
  crashed : s.crashed = false
  closers : ∀ k, s.closers k = .absent
  raw : s.rawClosed = false
  count : s.count ≤ 2 ^ 32
  lpc : s.lpc = .read
  wpc : s.ring.wpc = .idle
  rpc : s.ring.rpc = .waitSend
  open_ : s.ring.closed = false
  mpc : s.mpc = .inHead
  call : (s.calls 0).pc = .recv ∧ (s.calls 0).chan = none ∨ ∃ o, (s.calls 0).pc = .done o
  others : ∀ c, (s.calls (c + 1)).pc = .absent

theorem AtRest.stops {P : Params} {s : Conn.State} (h : AtRest s) (q : Proc) : ¬CanGo P s q := by
  intro hq
  cases q with
  | message =>
    obtain ⟨a, ha, hst⟩ := hq
    cases a <;> simp [Act.ofMessage] at ha
    case message => simp [Conn.step, h.crashed, messageStep, h.mpc, h.rpc] at hst
    case ring a =>
      cases a <;> simp [Ring.Action.ofReader] at ha <;>
        simp [Conn.step, h.crashed, full, inRing, Ring.step, Ring.rStep, h.rpc, h.wpc, h.open_] at hst
  | read => have := hq.2 h.lpc; rw [h.raw] at this; cases this
  | call c =>
    rcases hq with hq | ⟨hq, _⟩
    · rw [step_call h.crashed] at hq
      match c with
      | 0 =>
        rcases h.call with ⟨h1, h2⟩ | ⟨o, h1⟩
        · simp [callStep, h1, h2] at hq
        · simp [callStep, h1] at hq
      | c + 1 => simp [callStep, h.others c] at hq
    · rw [h.raw] at hq; cases hq
  | close k => exact hq.1 (h.closers k)

/-- A call has sent its request, and nothing has been received. -/
structure HasSent (s : Conn.State) : Prop where
  sent : (s.calls 0).sent ≠ []
  id : (s.calls 0).id = 1
  received : s.received = []

theorem exec_answered {P : Params} {ok : Conn.State → Act → Prop} {X : Conn.State → Prop} {as : List Act} {s0 : Conn.State}
    (h0 : Conn.Reach P ok s0) (hs : HasSent s0)
    (h : RunsTo P ok (fun s => AtRest s ∧ s.received = [0, 0, 0, 4, 0, 0, 0, 1] ∧ X s) as s0) :
    ∃ st act, Exec P st act ∧ Fair P st act ∧ Always P ok st act ∧ (∀ m, (st m).crashed = false) ∧
      (∀ m k, (st m).closers k = .absent) ∧ Apart P st ∧ Takes st act ∧ ((st 0).calls 0).sent ≠ [] ∧
      IsAnswered st 0 0 ∧ st 0 = s0 ∧ ∀ m, as.length ≤ m → X (st m) := by
  obtain ⟨st, act, hz, h1, h2, h3, h4⟩ := exec_of_runs h0 h (fun s hs => hs.1.stops)
  have hmax : ∀ n, AtRest (st (max n as.length)) := fun n => (h4 _ (Nat.le_max_right _ _)).1
  refine ⟨st, act, h1, h2, h3, fun n => ?_, fun n k => ?_, .of_count h1 fun n => ?_, takes_of_run (L := as.length) h1 fun m hm c rest hp => ?_,
    by rw [hz]; exact hs.sent, ?_, hz, fun m hm => (h4 m hm).2.2⟩
  · cases hx : (st n).crashed with
    | false => rfl
    | true =>
      have h5 := crashed_stays h1 hx (max n as.length) (Nat.le_max_left _ _)
      rw [(hmax n).crashed] at h5
      cases h5
  · refine Classical.byContradiction fun hx => ?_
    exact h1.keep (I := fun s => s.closers k ≠ .absent) (n := n) (fun m _ a _ ht hi => by
      generalize st (m + 1) = s' at ht
      cases ht <;> simp only [State.set] <;> grind) hx (max n as.length) (Nat.le_max_left _ _) ((hmax n).closers k)
  · have h5 := h1.keep (I := fun s => (st n).count ≤ s.count) (n := n) (fun m _ a _ ht hi => by
      generalize st (m + 1) = s' at ht
      cases ht <;> simp [State.set] <;> omega) (Nat.le_refl _) (max n as.length) (Nat.le_max_left _ _)
    have := (hmax n).count
    omega
  · have h5 := (h4 m hm).1
    cases c with
    | zero => rcases h5.call with ⟨h6, _⟩ | ⟨o, h6⟩ <;> rw [h6] at hp <;> cases hp
    | succ c => rw [h5.others c] at hp; cases hp
  · refine ⟨as.length, Nat.zero_le _, [0, 0, 0, 1], ?_, ?_⟩
    · rw [(h4 _ (Nat.le_refl _)).2.1, hz, hs.received]
      have e : splitStream [0, 0, 0, 4, 0, 0, 0, 1] = [0, 0, 0, 1] :: splitStream [] :=
        splitStream_frame 4 [0, 0, 0, 1] [] (by decide)
      have e0 : splitStream [] = [] := by rw [splitStream.eq_def]
      rw [e, e0]
      simp
    · rw [hz, hs.id, wire_int32]
      exact List.prefix_rfl

theorem sample_parsed : ∃ fs, Parsed fs [0, 0, 0, 4, 0, 0, 0, 1] := ⟨_, by
  have := Parsed.snoc 4 [0, 0, 0, 1] .nil (by decide)
  rw [wire_int32] at this
  exact this⟩

/-- `messageLoop` has looked, and found nothing; the reply comes and is published; now `messageLoop` waits. -/
def missed : List Act :=
  [.message] ++ List.replicate 4 (.ring .r) ++ [.read [0, 0, 0, 4, 0, 0, 0, 1]] ++ List.replicate 12 (.ring .w) ++
  [.readNext, .ring .r]

/-- The claim is false at every size, even if every reply comes in one piece: `messageLoop` has looked, and found nothing;
the reply comes and is published; now `messageLoop` waits, and is not woken. -/
theorem C65_race_fails {P : Params} (hN : 16 ≤ P.ring) (hP : 8 ≤ P.buf) :
    ¬C65_statement P (fun st act _ => Always P (fun s a => WholeReads P s a ∧ NoOverlap s a) st act) := by
  obtain ⟨N, B⟩ := P
  obtain ⟨M, rfl⟩ := Nat.exists_eq_add_of_le' hN
  obtain ⟨B, rfl⟩ := Nat.exists_eq_add_of_le' hP
  have ew : Wire.int32 1 = [0, 0, 0, 1] := by rw [wire_int32]; rfl
  intro hst
  have h : ∃ s, Conn.Reach ⟨M + 16, B + 8⟩ (fun s a => WholeReads ⟨M + 16, B + 8⟩ s a ∧ NoOverlap s a) s ∧ HasSent s ∧
      RunsTo ⟨M + 16, B + 8⟩ (fun s a => WholeReads ⟨M + 16, B + 8⟩ s a ∧ NoOverlap s a)
        (fun s => AtRest s ∧ s.received = [0, 0, 0, 4, 0, 0, 0, 1] ∧ (s.calls 0).pc = .recv) missed s := by
    refine RunsTo.reach (as := callDo 0) .init ?_
    unfold callDo Conn.init Ring.init sampleJob missed
    simp only [List.replicate, List.cons_append, List.nil_append]
    iterate 11 refine ⟨⟨trivial, trivial⟩, _, (by simp [Conn.step, callStep, State.set, upd, ew]; rfl), ?_⟩
    refine ⟨⟨by simp, rfl, rfl⟩, ?_⟩
    iterate 5 refine ⟨⟨trivial, by simp [NoOverlap]⟩, _, (by
      simp [Conn.step, messageStep, readN, inRing, Ring.step, Ring.rStep, Ring.rLoop, Ring.rReturn, Ring.incr]; rfl), ?_⟩
    refine ⟨⟨⟨sample_parsed, by show 0 + 8 + 2 ≤ 0 + (M + 16); omega⟩, trivial⟩, _, (by
      simp [Conn.step, inRing, Ring.step, Ring.wStep, Ring.wLoop, Ring.wReturn, Ring.incr]; rfl), ?_⟩
    iterate 13 refine ⟨⟨trivial, trivial⟩, _, (by
      simp [Conn.step, inRing, Ring.step, Ring.wStep, Ring.wLoop, Ring.wReturn, Ring.incr]; rfl), ?_⟩
    refine ⟨⟨trivial, by simp [NoOverlap]⟩, _, (by
      simp [Conn.step, inRing, Ring.step, Ring.rStep, Ring.rLoop, Ring.rReturn, Ring.incr]; rfl), ?_⟩
    exact ⟨⟨rfl, fun _ => rfl, rfl, by show 1 ≤ 2 ^ 32; decide, rfl, rfl, rfl, rfl, rfl, .inl ⟨rfl, rfl⟩, fun _ => rfl⟩, rfl, rfl⟩
  obtain ⟨s, h1, h2, h3⟩ := h
  obtain ⟨st, act, g1, g2, g3, g4, g5, g6, g7, g8, g9, g10, g11⟩ := exec_answered h1 h2 h3
  obtain ⟨m, _, hm⟩ := hst st act g1 g2 g4 g5 g6 g7 0 0 g3 g8 g9
  have hdone : ∃ o, ((st m).calls 0).pc = .done o := by
    rcases hm with ⟨d, h4, _⟩ | ⟨e, h4, _⟩ <;> exact ⟨_, h4⟩
  obtain ⟨o, ho⟩ := hdone
  have hk := g1.keep (I := fun s => (s.calls 0).pc = .done o) (n := m) (fun j _ a _ ht hi => by
    generalize st (j + 1) = s' at ht
    cases ht <;> simp only [State.set] <;> grind) ho (max m missed.length) (Nat.le_max_left _ _)
  rw [g11 _ (Nat.le_max_right m missed.length)] at hk
  cases hk

/-- `messageLoop` waits; the reply comes in one piece; `messageLoop` is woken and reads it; the call returns. -/
def served : List Act :=
  [.message] ++ List.replicate 5 (.ring .r) ++ [.read [0, 0, 0, 4, 0, 0, 0, 1]] ++ List.replicate 12 (.ring .w) ++
    [.ring .handR, .readNext] ++ List.replicate 6 (.ring .r) ++ [.message] ++ List.replicate 8 (.ring .r) ++
    List.replicate 7 .message ++ [.call 0, .message] ++ List.replicate 5 (.ring .r)

/-- Non-trivial instance of `C65_whole_partial` and of `C66_partial`, at every size. -/
theorem whole_example {P : Params} (hN : 16 ≤ P.ring) (hP : 8 ≤ P.buf) :
    ∃ st act, Exec P st act ∧ Fair P st act ∧ Always P (fun s a => WholeReads P s a ∧ Synced s a) st act ∧
      (∀ m, (st m).crashed = false) ∧ (∀ m k, (st m).closers k = .absent) ∧ Apart P st ∧ Takes st act ∧
      ((st 0).calls 0).sent ≠ [] ∧ IsAnswered st 0 0 ∧
      ∃ m d, ((st m).calls 0).pc = .done (.reply d) ∧ (st m).frames = [[0, 0, 0, 1]] := by
  obtain ⟨N, B⟩ := P
  obtain ⟨M, rfl⟩ := Nat.exists_eq_add_of_le' hN
  obtain ⟨B, rfl⟩ := Nat.exists_eq_add_of_le' hP
  have ew : Wire.int32 1 = [0, 0, 0, 1] := by rw [wire_int32]; rfl
  have hs4 : headSize (0#8 :: 0#8 :: 0#8 :: 4#8 :: 0#8 :: 0#8 :: 0#8 :: 0#8 :: List.replicate B 0#8) = some 4 := rfl
  have hr4 : room (0#8 :: 0#8 :: 0#8 :: 4#8 :: 0#8 :: 0#8 :: 0#8 :: 0#8 :: List.replicate B 0#8) 4 =
      0#8 :: 0#8 :: 0#8 :: 4#8 :: 0#8 :: 0#8 :: 0#8 :: 0#8 :: List.replicate B 0#8 :=
    if_neg (by simp only [List.length_cons, List.length_replicate]; omega)
  have h : ∃ s, Conn.Reach ⟨M + 16, B + 8⟩ (fun s a => WholeReads ⟨M + 16, B + 8⟩ s a ∧ Synced s a) s ∧ HasSent s ∧
      RunsTo ⟨M + 16, B + 8⟩ (fun s a => WholeReads ⟨M + 16, B + 8⟩ s a ∧ Synced s a)
        (fun s => AtRest s ∧ s.received = [0, 0, 0, 4, 0, 0, 0, 1] ∧
          ∃ d, (s.calls 0).pc = .done (.reply d) ∧ s.frames = [[0, 0, 0, 1]]) served s := by
    refine RunsTo.reach (as := callDo 0) .init ?_
    unfold callDo Conn.init Ring.init sampleJob served
    simp only [List.replicate, List.cons_append, List.nil_append]
    iterate 11 refine ⟨⟨trivial, trivial⟩, _, (by simp [Conn.step, callStep, State.set, upd, ew]; rfl), ?_⟩
    refine ⟨⟨by simp, rfl, rfl⟩, ?_⟩
    iterate 6 refine ⟨⟨trivial, by simp [Synced]⟩, _, (by
      simp [Conn.step, messageStep, readN, inRing, Ring.step, Ring.rStep, Ring.rLoop, Ring.rReturn, Ring.incr]; rfl), ?_⟩
    refine ⟨⟨⟨sample_parsed, by show 0 + 8 + 2 ≤ 0 + (M + 16); omega⟩, trivial⟩, _, (by
      simp [Conn.step, inRing, Ring.step, Ring.wStep, Ring.wLoop, Ring.wReturn, Ring.incr]; rfl), ?_⟩
    iterate 14 refine ⟨⟨trivial, trivial⟩, _, (by
      simp [Conn.step, inRing, Ring.step, Ring.wStep, Ring.wLoop, Ring.wReturn, Ring.rWaited, Ring.incr]; rfl), ?_⟩
    iterate 6 refine ⟨⟨trivial, by simp [Synced]⟩, _, (by
      simp [Conn.step, messageStep, readN, inRing, Ring.step, Ring.rStep, Ring.rLoop, Ring.rReturn, Ring.incr, List.replicate_succ]; rfl), ?_⟩
    refine ⟨⟨trivial, trivial⟩, _, (by simp [Conn.step, messageStep, readN, hs4, hr4, Ring.step]; rfl), ?_⟩
    iterate 8 refine ⟨⟨trivial, by simp [Synced]⟩, _, (by
      simp [Conn.step, messageStep, readN, inRing, Ring.step, Ring.rStep, Ring.rLoop, Ring.rReturn, Ring.incr, List.replicate_succ]; rfl), ?_⟩
    iterate 7 refine ⟨⟨trivial, trivial⟩, _, (by simp [Conn.step, messageStep, upd, State.set]; rfl), ?_⟩
    refine ⟨⟨trivial, trivial⟩, _, (by simp [Conn.step, callStep, upd, State.set]; rfl), ?_⟩
    iterate 6 refine ⟨⟨trivial, by simp [Synced]⟩, _, (by
      simp [Conn.step, messageStep, readN, inRing, Ring.step, Ring.rStep, Ring.rLoop, Ring.rReturn, Ring.incr]; rfl), ?_⟩
    exact ⟨⟨rfl, fun _ => rfl, rfl, by show 1 ≤ 2 ^ 32; decide, rfl, rfl, rfl, rfl, rfl, .inr ⟨_, rfl⟩, fun _ => rfl⟩, rfl, _, rfl, rfl⟩
  obtain ⟨s, h1, h2, h3⟩ := h
  obtain ⟨st, act, g1, g2, g3, g4, g5, g6, g7, g8, g9, g10, g11⟩ := exec_answered h1 h2 h3
  exact ⟨st, act, g1, g2, g3, g4, g5, g6, g7, g8, g9, _, g11 _ (Nat.le_refl _)⟩

end Kafka.Props
