import Verif.Props.Acks
import Verif.Props.TimelyConn
/-!
C65 and C80 in every schedule: a call returns when `messageLoop` reads a frame with its id, and waits for ever when it
does not.
-/
set_option linter.unusedSimpArgs false

namespace Kafka.Props

open Kafka Kafka.Conn

section
variable {P : Params} {st : Nat → Conn.State} {act : Nat → Option Act}

/-- A call that never returns stays registered under the same id. -/
theorem registered_stays (he : Exec P st act) {n c : Nat} (hreg : ((st n).calls c).pc.registered = true)
    (hno : ∀ k o, n ≤ k → ((st k).calls c).pc ≠ .done o) :
    ∀ m, n ≤ m → ((st m).calls c).pc.registered = true ∧ ((st m).calls c).id = ((st n).calls c).id := by
  refine he.keep (I := fun s => (s.calls c).pc.registered = true ∧ (s.calls c).id = ((st n).calls c).id) ?_ ⟨hreg, rfl⟩
  intro m hm a _ ht ⟨h1, h2⟩
  have hno' := fun o => hno (m + 1) o (by omega)
  generalize st (m + 1) = s' at ht hno'
  cases ht <;> simp only [State.set] at hno' ⊢ <;> grind [CPc.registered]

/-- What is in its channel stays there. -/
theorem chan_stays (he : Exec P st act) {n c : Nat} {d : Decoder} (hd : ((st n).calls c).chan = some d)
    (hno : ∀ k o, n ≤ k → ((st k).calls c).pc ≠ .done o) : ∀ m, n ≤ m → ((st m).calls c).chan = some d := by
  refine he.keep (I := fun s => (s.calls c).chan = some d) ?_ hd
  intro m hm a _ ht h1
  have hno' := fun o => hno (m + 1) o (by omega)
  generalize st (m + 1) = s' at ht hno'
  cases ht <;> simp only [State.set] at hno' ⊢ <;> grind

/-- The frame `messageLoop` has just read. -/
theorem read_frame {s s' : Conn.State} {a : Act} (hr : Conn.Reach P Conn.Any s) (h : Trans P s a s') {f : List Byte} {id : Int32}
    (hf : s'.frames = s.frames ++ [f]) (hid : Wire.int32 id <+: f) : ∃ d, s'.mpc = .rlock id d := by
  have hlen : ∀ l : List (List Byte), l ≠ l ++ [f] := fun l e => by
    have := congrArg List.length e
    simp at this
  have ht4 : ∀ {l : List Byte} {n : Nat}, 4 ≤ n → l.take n = f → Wire.int32 id = l.take 4 := fun {l n} hn e => by
    obtain ⟨t, ht⟩ := hid
    have h4 : (Wire.int32 id).length = 4 := int32_len _
    have : (l.take n).take 4 = l.take 4 := by rw [List.take_take, Nat.min_eq_left hn]
    rw [← this, e, ← ht, List.take_left' h4]
  cases h <;> try exact absurd hf (hlen _)
  case parse size resp d hm hc hs hd =>
    have hb := hr.frames.length hm hs
    have hz := hr.frames.size size hm
    rw [hr.frames.buf] at hs
    simp only [List.append_cancel_left_eq, List.cons.injEq, and_true] at hf
    rcases header_start hz.1 hz.2 (hb.symm ▸ hs) with ⟨_, h2⟩ | ⟨h1, resp', h2, h3⟩
    · rw [hd] at h2; cases h2
    · rw [hd] at h3
      cases h3
      have := int32_inj ((ht4 (by omega) hf).trans h2)
      subst this
      exact ⟨_, rfl⟩
  case skip size e d hm hc hs hd =>
    have hb := hr.frames.length hm hs
    have hz := hr.frames.size size hm
    rw [hr.frames.buf] at hs
    simp only [List.append_cancel_left_eq, List.cons.injEq, and_true] at hf
    rcases header_start hz.1 hz.2 (hb.symm ▸ hs) with ⟨h1, _⟩ | ⟨h1, resp', h2, h3⟩
    · have h5 := hid.length_le
      rw [int32_len, ← hf, List.length_take] at h5
      omega
    · rw [hd] at h3; cases h3
  case parseCrash size hm hc hs hd =>
    have hb := hr.frames.length hm hs
    have hz := hr.frames.size size hm
    rw [hr.frames.buf] at hs
    rcases header_start hz.1 hz.2 (hb.symm ▸ hs) with ⟨_, h2⟩ | ⟨_, _, _, h3⟩
    · rw [hd] at h2; cases h2
    · rw [hd] at h3; cases h3

/-- **C65, in every schedule.**  When `messageLoop` reads a frame with the id of a registered call, the call returns, whatever
else happens on the connection. -/
theorem C65_read (hP : 4 ≤ P.buf) (he : Exec P st act) (hf : Fair P st act) (hcr : ∀ m, (st m).crashed = false)
    (hap : Apart P st) (ht : Takes st act) {n c : Nat} (hreg : ((st n).calls c).pc.registered = true) {m : Nat} (hm : n ≤ m)
    {f : List Byte} (hfr : (st (m + 1)).frames = (st m).frames ++ [f]) (hid : Wire.int32 ((st n).calls c).id <+: f) :
    ∃ k o, n ≤ k ∧ ((st k).calls c).pc = .done o := by
  refine Classical.byContradiction fun hno => ?_
  have hno : ∀ k o, n ≤ k → ((st k).calls c).pc ≠ .done o := fun k o hk e => hno ⟨k, o, hk, e⟩
  have hw := registered_stays he hreg hno
  have hch : ∀ m, n ≤ m → ((st m).calls c).chan = none := fun m hm => by
    cases hx : ((st m).calls c).chan with
    | none => rfl
    | some d =>
      obtain ⟨k, hk, h1 | ⟨o, h1⟩⟩ := C61_proceeds hP he hf hcr ht (n := m) (c := c) (fun e => by
        have := (hw m hm).1; rw [e] at this; cases this)
      · obtain ⟨k', h2, h3⟩ := C61_takes he hf hcr h1 (chan_stays he hx (fun k o hk => hno k o (by omega)) k hk)
        exact absurd h3 (hno _ _ (by omega))
      · exact absurd h1 (hno _ _ (by omega))
  have htk : ∀ m, n ≤ m → (st m).mpc.taken ≠ some c := fun m hm hx => by
    obtain ⟨m', d, h1, h2⟩ := hf.sends hP he hcr hx
    rw [hch m' (by omega)] at h2
    cases h2
  have hrq : ∀ m, n ≤ m → (st m).requests ((st n).calls c).id = some c := fun m hm => by
    have hr := he.reach m
    have hpm := hw m hm
    rcases hap.kept he m c hpm.1 (fun o => hno m o hm) with h1 | h1 | h1
    · rw [← hpm.2]; exact h1
    · exact absurd h1 (htk m hm)
    · rcases hr.decoded c h1 with h2 | h2 | h2
      · exact absurd h2 (htk m hm)
      · exact absurd (hch m hm) h2
      · cases h4 : ((st m).calls c).pc <;> rw [h4] at h2 <;> first | (cases h2; done) | exact absurd h4 (hno _ _ hm)
  obtain ⟨d, hd⟩ : ∃ d, (st (m + 1)).mpc = .rlock ((st n).calls c).id d := by
    cases ha : act m with
    | none =>
      have := congrArg List.length hfr
      rw [he.none m ha] at this
      simp at this
    | some a => exact read_frame (he.reach m) (step_trans (he.some m a ha)) hfr hid
  generalize hide : ((st n).calls c).id = id at *
  have hn1 : n ≤ m + 1 := by omega
  obtain ⟨m1, hm1, hp1⟩ := hf.move hP he (.rlock id d) (fun s => s.mpc = .lookup id d) (by simp)
    (fun hI k => by
      obtain ⟨m', h1, h2⟩ := hf.freeR hP he hcr (max (m + 1) k)
      refine ⟨m', by omega, by omega, ?_⟩
      rw [step_message (hcr m')]
      simp [messageStep, hI m' (by omega), h2])
    (fun m' _ ht hi => by generalize st (m' + 1) = s' at ht; cases ht <;> simp_all) hd
  obtain ⟨m2, hm2, c2, hp2⟩ := hf.moveReady hP he hcr (.lookup id d) (fun s => ∃ c, s.mpc = .delete id d c)
    (by simp) (fun s _ hi => by simp [messageStep, hi])
    (fun m' _ ht hi => by generalize st (m' + 1) = s' at ht; cases ht <;> simp_all) hp1
  have hc2 := (he.reach m2).tokens.looked id d c2 hp2
  rw [hrq m2 (by omega)] at hc2
  subst hc2
  obtain ⟨m3, hm3, hp3⟩ := hf.moveReady hP he hcr (.delete id d (some c)) (fun s => s.mpc = .runlock d (some c))
    (by simp) (fun s _ hi => by simp [messageStep, hi])
    (fun m' _ ht hi => by generalize st (m' + 1) = s' at ht; cases ht <;> simp_all) hp2
  exact htk m3 (by omega) (by rw [hp3]; rfl)

/-- A call that waits goes on waiting until it returns a reply. -/
theorem recv_stays (he : Exec P st act) {n c : Nat} (hp : ((st n).calls c).pc = .recv)
    (hno : ∀ m d, ((st m).calls c).pc ≠ .done (.reply d)) : ∀ m, n ≤ m → ((st m).calls c).pc = .recv := by
  refine he.keep (I := fun s => (s.calls c).pc = .recv) ?_ hp
  intro m hm a _ ht h1
  have hno' := hno (m + 1)
  generalize st (m + 1) = s' at ht hno'
  cases ht <;> simp only [State.set] at hno' ⊢ <;> grind

/-- **C80, in every schedule.**  A call with whose id no frame begins that `messageLoop` reads never returns, unless its request
cannot be written: from some moment on it waits for ever. -/
theorem C80_unread (hP : 4 ≤ P.buf) (he : Exec P st act) (hf : Fair P st act) (hcr : ∀ m, (st m).crashed = false)
    (ht : Takes st act) {n c : Nat} (hc : ((st n).calls c).pc ≠ .absent)
    (hu : ∀ m, ∀ p ∈ (st m).frames, ¬Wire.int32 ((st m).calls c).id <+: p) :
    (∃ m e, n ≤ m ∧ ((st m).calls c).pc = .done (.flushErr e)) ∨ ∃ k, n ≤ k ∧ ∀ m, k ≤ m → ((st m).calls c).pc = .recv := by
  have hno : ∀ m d, ((st m).calls c).pc ≠ .done (.reply d) := fun m d hd => by
    obtain ⟨f, hf, hid, _⟩ := (he.reach m).frames.done c d hd
    exact hu m f hf hid
  obtain ⟨k, hk, hr | ⟨o, ho⟩⟩ := C61_proceeds hP he hf hcr ht hc
  · exact .inr ⟨k, hk, recv_stays he hr hno⟩
  · cases o with
    | flushErr e => exact .inl ⟨k, e, hk, ho⟩
    | reply d => exact absurd ho (hno k d)

/-- **C80.**  The same of a call to which no frame received answers, in all schedules in which each byte of the ring buffer is
read in time. -/
theorem C80_never_inTime (hN : 0 < P.ring) (hP : 4 ≤ P.buf) (he : Exec P st act) (hf : Fair P st act)
    (hs : Conn.Reach P (InTimeConn P) (st 0)) (hi : ∀ n a, act n = some a → InTimeConn P (st n) a)
    (hcr : ∀ m, (st m).crashed = false) (ht : Takes st act) {n c : Nat} (hc : ((st n).calls c).pc ≠ .absent)
    (hu : NotAnswered st c) :
    (∃ m e, n ≤ m ∧ ((st m).calls c).pc = .done (.flushErr e)) ∨ ∃ k, n ≤ k ∧ ∀ m, k ≤ m → ((st m).calls c).pc = .recv := by
  have hr : ∀ m, Conn.Reach P (InTimeConn P) (st m) := fun m => by
    induction m with
    | zero => exact hs
    | succ m ih =>
      cases ha : act m with
      | none => rw [he.none m ha]; exact ih
      | some a => exact ih.step a (hi m a ha) (he.some m a ha)
  exact C80_unread hP he hf hcr ht hc fun m p hp => hu m p ((C37_inTime_partial hN hP _ (hr m)).subset hp)

end

/-- Non-trivial instance of `C65_read`: the reply of a call that waits is read. -/
example : ∃ st act, Exec small st act ∧ Fair small st act ∧ (∀ m, (st m).crashed = false) ∧ Apart small st ∧ Takes st act ∧
    ∃ n m f, n ≤ m ∧ ((st n).calls 0).pc.registered = true ∧ (st (m + 1)).frames = (st m).frames ++ [f] ∧
      Wire.int32 ((st n).calls 0).id <+: f := by
  obtain ⟨st, act, h1, h2, h3⟩ := steady_of_check (as := answered) (by decide +kernel)
    (fun s hs => by cases hs; exact fun _ => rfl) (fun s hs => by cases hs; exact fun _ => rfl) (by decide +kernel)
  have hlen : answered.length = 57 := by decide
  have e1 : (Conn.run small (answered.take 11) (Conn.init small)).map (fun s => ((s.calls 0).pc.registered, (s.calls 0).id)) =
      some (true, 1) := by decide +kernel
  have e2 : (Conn.run small (answered.take 43) (Conn.init small)).map (fun s => s.frames) = some [] := by decide +kernel
  have e3 : (Conn.run small (answered.take (44)) (Conn.init small)).map (fun s => s.frames) = some [[0, 0, 0, 1]] := by
    decide +kernel
  rw [h2] at e1 e2 e3
  simp only [Option.map_some, Option.some.injEq, Prod.mk.injEq] at e1 e2 e3
  refine ⟨st, act, h1.exec, h1.fair, h1.crashed, h1.apart, takes_of_run (L := 57) h1.exec (fun m hm c rest hp => ?_), 11, 43,
    [0, 0, 0, 1], by omega, e1.1, by rw [e2, e3]; rfl, by rw [e1.2, wire_int32]; exact List.prefix_rfl⟩
  have := h2 m
  rw [List.take_of_length_le (by omega)] at this
  generalize st m = s at this hp
  cases this
  cases c with
  | zero => cases hp
  | succ c => cases hp

end Kafka.Props
