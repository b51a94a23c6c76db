import Verif.Conn.Fair
import Verif.Ring.Mutex
/-!
What `messageLoop` does with bytes that are in the ring buffer, in executions in which no goroutine is passed over for
ever.
-/
set_option linter.unusedSimpArgs false

namespace Kafka.Conn

open Kafka

/-! ### Frames of a stream -/

theorem int32_len (v : Int32) : (Wire.int32 v).length = 4 := by rw [wire_int32]; rfl

/-- The complete frames of a stream stand at its start. -/
theorem Parsed.cons {gs : List (List Byte)} {bs : List Byte} (v : Int32) (f : List Byte) (hf : f.length = v.toInt.toNat)
    (h : Parsed gs bs) : Parsed (f :: gs) (Wire.int32 v ++ f ++ bs) := by
  induction h with
  | nil => simpa using Parsed.snoc v f .nil hf
  | snoc w g _ hg ih => simpa using Parsed.snoc w g ih hg

theorem Parsed.of_split (bs : List Byte) : ∃ t, Parsed (splitStream bs) t ∧ t <+: bs := by
  match h : bs with
  | a :: b :: c :: d :: rest =>
    rw [splitStream]
    split
    · exact ⟨[], .nil, List.nil_prefix⟩
    · rename_i hn
      obtain ⟨v, h1, h2⟩ : ∃ v : Int32, [a, b, c, d] = Wire.int32 v ∧ Wire.readInt32 a b c d = v.toInt := by
        obtain ⟨v, h1, _⟩ := headSize_eq (buf := [a, b, c, d]) (Nat.le_refl 4)
        have h1 : [a, b, c, d] = Wire.int32 v := h1
        refine ⟨v, h1, ?_⟩
        have h2 := beUint32_be32 v.toBitVec []
        rw [← wire_int32, ← h1] at h2
        simp only [List.append_nil, beUint32, Option.some.injEq] at h2
        unfold Wire.readInt32
        rw [h2]
        rfl
      obtain ⟨t, h3, h4⟩ := Parsed.of_split (rest.drop (Wire.readInt32 a b c d).toNat)
      refine ⟨_, h3.cons v _ ?_, ?_⟩
      · rw [List.length_take, h2]; rw [h2] at hn; omega
      · obtain ⟨u, h4⟩ := h4
        refine ⟨u, ?_⟩
        rw [← h1]
        simp only [List.cons_append, List.nil_append, List.append_assoc, h4, List.take_append_drop]
  | [] => rw [splitStream]; exact ⟨[], .nil, List.nil_prefix⟩; simp
  | [_] => rw [splitStream]; exact ⟨[], .nil, List.nil_prefix⟩; simp
  | [_, _] => rw [splitStream]; exact ⟨[], .nil, List.nil_prefix⟩; simp
  | [_, _, _] => rw [splitStream]; exact ⟨[], .nil, List.nil_prefix⟩; simp
termination_by bs.length
decreasing_by subst h; simp; omega

theorem Parsed.take {gs : List (List Byte)} {bs : List Byte} (h : Parsed gs bs) :
    ∀ k, ∃ t, Parsed (gs.take k) t ∧ t <+: bs := by
  induction h with
  | nil => intro k; exact ⟨[], by simpa using Parsed.nil, List.nil_prefix⟩
  | @snoc fs bs v f h hf ih =>
    intro k
    by_cases hk : k ≤ fs.length
    · obtain ⟨t, h1, h2⟩ := ih k
      exact ⟨t, by rw [List.take_append_of_le_length hk]; exact h1, h2.trans ⟨Wire.int32 v ++ f, by simp⟩⟩
    · exact ⟨_, by rw [List.take_of_length_le (by simp; omega)]; exact .snoc v f h hf, List.prefix_rfl⟩

theorem int32_inj {v w : Int32} (h : Wire.int32 v = Wire.int32 w) : v = w := by
  rw [wire_int32, wire_int32] at h
  have h1 := beUint32_be32 v.toBitVec []
  have h2 := beUint32_be32 w.toBitVec []
  rw [h, h2, Option.some.injEq] at h1
  exact Int32.toBitVec_inj.1 h1.symm

theorem Parsed.det {fs gs : List (List Byte)} {bs cs R : List Byte} (h : Parsed fs bs) (h' : Parsed gs cs)
    (hb : bs <+: R) (hc : cs <+: R) (hl : fs.length = gs.length) : fs = gs ∧ bs = cs := by
  induction h generalizing gs cs with
  | nil =>
    cases h' with
    | nil => exact ⟨rfl, rfl⟩
    | snoc => simp at hl
  | @snoc fs bs v f h hf ih =>
    cases h' with
    | nil => simp at hl
    | @snoc gs cs w g h' hg =>
      have pre : ∀ (l m n : List Byte), l ++ m ++ n <+: R → l <+: R := fun l m n hx =>
        (by simp : l <+: l ++ m ++ n).trans hx
      obtain ⟨rfl, rfl⟩ := ih h' (pre _ _ _ hb) (pre _ _ _ hc) (by simpa using hl)
      obtain ⟨x, hx⟩ := hb
      obtain ⟨y, hy⟩ := hc
      rw [← hx] at hy
      simp only [List.append_assoc, List.append_cancel_left_eq] at hy
      obtain ⟨h1, h2⟩ := List.append_inj hy (by simp [int32_len])
      have := int32_inj h1
      subst this
      obtain ⟨rfl, _⟩ := List.append_inj h2 (by rw [hf, hg])
      exact ⟨rfl, rfl⟩

/-- The frame that comes next. -/
theorem Parsed.next {fs gs : List (List Byte)} {bs U R : List Byte} (h : Parsed fs bs) (h' : Parsed gs U)
    (hb : bs <+: R) (hU : U <+: R) (hl : fs.length < gs.length) :
    ∃ v f, f.length = v.toInt.toNat ∧ bs ++ Wire.int32 v ++ f <+: U := by
  obtain ⟨t, h1, h2⟩ := h'.take (fs.length + 1)
  have hlen : (gs.take (fs.length + 1)).length = fs.length + 1 := by rw [List.length_take]; omega
  generalize gs.take (fs.length + 1) = ks at h1 hlen
  cases h1 with
  | nil => simp at hlen
  | @snoc ks cs v f h3 hf =>
    have hcs : cs <+: R := ((by simp : cs <+: cs ++ Wire.int32 v ++ f).trans h2).trans hU
    obtain ⟨_, rfl⟩ := h.det h3 hb hcs (by simpa using hlen.symm)
    exact ⟨v, f, hf, h2⟩

end Kafka.Conn

namespace Kafka.Ring

/-- How far the reader is from the next byte it reads, from returning or from waiting. -/
def RPc.stage : RPc → Nat
  | .idle | .waitSend => 0
  | .frelRecv => 1
  | .frelCas => 2
  | .fstore | .get => 3
  | .waitCas => 4
  | .reload => 5
  | .relRecv => 6
  | .relCas => 7
  | .store => 8
  | .load2 => 9
  | .load1 => 10

/-- The reader has read all it is to read. -/
def RPc.late : RPc → Bool
  | .idle | .fstore | .frelCas | .frelRecv => true
  | _ => false

/-- The reader waits for the writer, or is about to. -/
def RPc.waits : RPc → Bool
  | .waitCas | .waitSend => true
  | _ => false

/-- An operation of the reader brings it nearer, unless it is woken. -/
theorem reader_stage {N : Nat} {a : Action} {r r' : State} (hp : Pair r) (hc : r.closed = false)
    (ha : Conn.inRing a = true) (ho : a.ofReader = true) (h : step N a r = some r') (hw : a ≠ .handR) :
    (r'.got = r.got ∧ r'.rpc.stage < r.rpc.stage ∧ (r.rpc.late = true → r'.rpc.late = true) ∧
        (0 < r.rn → r.rpc.late = false → r'.rpc.late = false)) ∨
     (a = .r ∧ r.rpc = .get ∧ r'.got.length = r.got.length + 1) := by
  cases a <;> simp [Conn.inRing] at ha <;> simp [Action.ofReader] at ho
  case handR => exact absurd rfl hw
  case handW =>
    simp only [step] at h
    split at h
    · split at h
      · simp only [Option.some.injEq] at h; subst h
        rename_i hx
        simp [hx, wWaited, RPc.stage, RPc.late]
      · split at h
        · simp only [Option.some.injEq] at h; subst h
          rename_i hx
          simp [hx, wWaited, rReturn, RPc.stage, RPc.late]
        · cases h
    · cases h
  case r =>
    simp only [step, rStep] at h
    split at h <;> rename_i hpc <;> simp only [hpc]
    case h_1 => cases h
    case h_2 => simp only [Option.some.injEq] at h; subst h; simp [RPc.stage, RPc.late]
    case h_3 =>
      simp only [Option.some.injEq] at h; subst h
      unfold rLoop
      split
      · split <;> simp [RPc.stage, RPc.late]
      · rename_i hx; simp [RPc.stage, RPc.late]; simp at hx; omega
    case h_4 => simp only [Option.some.injEq] at h; subst h; split <;> simp [RPc.stage, RPc.late]
    case h_5 => simp only [Option.some.injEq] at h; subst h; split <;> simp [RPc.stage, RPc.late]
    case h_6 => rw [hc] at h; simp at h
    case h_7 => simp only [Option.some.injEq] at h; subst h; split <;> simp [RPc.stage, RPc.late]
    case h_8 =>
      have hx : r.rset = false := by
        cases hx : r.rset with
        | false => rfl
        | true => have := (hp.rset.1 hx).1; rw [hpc] at this; cases this
      rw [hx] at h
      simp at h
      subst h
      simp [RPc.stage, RPc.late]
    case h_9 => rw [hc] at h; simp at h
    case h_10 =>
      simp only [Option.some.injEq] at h; subst h
      simp
    case h_11 => simp only [Option.some.injEq] at h; subst h; split <;> simp [RPc.stage, RPc.late, rReturn]
    case h_12 => simp only [Option.some.injEq] at h; subst h; split <;> simp [RPc.stage, RPc.late, rReturn]
    case h_13 => rw [hc] at h; simp at h

/-- The reader does not begin to wait where it has no reason to. -/
theorem reader_awake {N : Nat} {a : Action} {r r' : State} (hp : Pos N r) (hf : Fifo N r)
    (ha : Conn.inRing a = true) (h : step N a r = some r')
    (hw : r.rpc.waits = false) (hd : r.rpc = .reload → r.got.length < r.pub) : r'.rpc.waits = false := by
  cases a <;> simp [Conn.inRing] at ha
  case w =>
    simp only [step, wStep] at h
    split at h <;> (try split at h) <;> simp only [Option.some.injEq, reduceCtorEq] at h <;>
      (try split at h) <;> subst h <;> simp [wReleased, wWaited, wReturn, hw]
  case handR =>
    simp only [step] at h
    split at h
    · rename_i hx; rw [hx] at hw; cases hw
    · cases h
  case handW =>
    simp only [step] at h
    split at h <;> (try split at h) <;> (try split at h) <;> simp only [Option.some.injEq, reduceCtorEq] at h <;>
      subst h <;> simp [wWaited, rReturn, RPc.waits]
  case r =>
    simp only [step, rStep] at h
    split at h <;> rename_i hpc <;> simp only [hpc] at hw hd
    case h_1 => cases h
    case h_3 =>
      simp only [Option.some.injEq] at h; subst h
      unfold rLoop
      split <;> (try split) <;> rfl
    case h_7 =>
      simp only [Option.some.injEq] at h
      have h1 : r.rpos ≠ r.next := fun hx => by
        rw [hp.rpos (by rw [hpc]; rfl), hp.next] at hx
        have h2 := hd trivial
        have h3 := hp.pub_le
        have h4 := hp.rel_le
        have h5 := hf.room
        have := mod_inj (by omega) (by omega) hx
        omega
      rw [if_neg h1] at h
      subst h
      rfl
    case h_10 =>
      simp only [Option.some.injEq] at h; subst h
      unfold rLoop
      split <;> (try split) <;> rfl
    case h_8 | h_9 => cases hw
    all_goals
      (try split at h) <;> simp only [Option.some.injEq, reduceCtorEq] at h <;>
        (try split at h) <;> subst h <;> simp [rReturn, RPc.waits]

/-- A goroutine that waits had reason to when it last looked: the reader found the buffer empty, the writer found it
full. -/
structure Looked (N : Nat) (s : State) : Prop where
  empty : s.rpc.waits = true → s.rpub = s.got.length
  full : s.wpc = .waitCas ∨ s.wpc = .waitSend → s.put.length + 1 = s.wrel + N

theorem Looked.step {N : Nat} {a : Action} {s s' : State} (h : Looked N s) (hp : Pos N s) (hf : Fifo N s)
    (hN : 2 ≤ N) (hs : step N a s = some s') : Looked N s' := by
  obtain ⟨h1, h2⟩ := h
  have wl : ∀ t : State, (t.rpc.waits = true → t.rpub = t.got.length) → Looked N (Ring.wLoop t) := fun t ht => by
    unfold Ring.wLoop
    split <;> exact ⟨ht, by simp⟩
  have rl : ∀ t : State, (t.wpc = .waitCas ∨ t.wpc = .waitSend → t.put.length + 1 = t.wrel + N) → Looked N (Ring.rLoop t) :=
    fun t ht => by
      unfold Ring.rLoop
      split
      · split <;> exact ⟨by simp [RPc.waits], ht⟩
      · exact ⟨by simp [RPc.waits], ht⟩
  cases a
  case callW | callR | close =>
    simp only [Ring.step] at hs
    try split at hs
    all_goals simp only [Option.some.injEq, reduceCtorEq] at hs
    all_goals subst hs; constructor <;> simp_all [RPc.waits]
  case handR =>
    simp only [Ring.step] at hs
    split at hs <;> (try split at hs) <;> (try split at hs) <;> simp only [Option.some.injEq, reduceCtorEq] at hs <;>
      subst hs <;> constructor <;> simp_all [wReleased, wReturn, rWaited, RPc.waits]
  case handW =>
    simp only [Ring.step] at hs
    split at hs <;> (try split at hs) <;> (try split at hs) <;> simp only [Option.some.injEq, reduceCtorEq] at hs <;>
      subst hs <;> exact wl _ (by simp [rReturn, RPc.waits])
  case w =>
    simp only [Ring.step, Ring.wStep] at hs
    split at hs <;> rename_i hpc
    case h_8 =>
      simp only [Option.some.injEq] at hs
      subst hs
      split
      · rename_i he
        refine ⟨h1, fun _ => ?_⟩
        have h3 := hf.room
        have h4 := hp.pub_le
        have h5 := hp.rel_le
        have h6 := hf.got_le
        rw [hp.wpos (by rw [hpc]; rfl), hp.start, incr_mod (by omega)] at he
        show s.put.length + 1 = s.rel + N
        have h7 : (s.put.length + 1) % N = (s.rel + N) % N := by rw [Nat.add_mod_right]; exact he
        exact mod_inj h3 (by omega) h7
      · exact wl _ h1
    case h_3 => simp only [Option.some.injEq] at hs; subst hs; exact wl _ h1
    case h_4 =>
      simp only [Option.some.injEq] at hs; subst hs
      split
      · exact ⟨h1, by simp⟩
      · exact wl _ h1
    case h_9 =>
      simp only [Option.some.injEq] at hs; subst hs
      split
      · exact wl _ h1
      · exact ⟨h1, fun _ => h2 (.inl hpc)⟩
    case h_10 =>
      split at hs <;> simp only [Option.some.injEq, reduceCtorEq] at hs
      subst hs
      exact wl _ h1
    all_goals
      (try split at hs) <;> simp only [Option.some.injEq, reduceCtorEq] at hs <;> (try split at hs) <;> subst hs <;>
        exact ⟨h1, by simp [wReleased, wReturn]⟩
  case r =>
    simp only [Ring.step, Ring.rStep] at hs
    split at hs <;> rename_i hpc
    case h_7 =>
      simp only [Option.some.injEq] at hs
      subst hs
      split
      · rename_i he
        refine ⟨fun _ => ?_, h2⟩
        have h3 := hf.room
        have h4 := hp.pub_le
        have h5 := hp.rel_le
        have h6 := hf.got_le
        rw [hp.rpos (by rw [hpc]; rfl), hp.next] at he
        exact (mod_inj h6 (by omega) he).symm
      · exact ⟨by simp [RPc.waits], h2⟩
    case h_3 => simp only [Option.some.injEq] at hs; subst hs; exact rl _ h2
    case h_10 => simp only [Option.some.injEq] at hs; subst hs; exact rl _ h2
    case h_8 =>
      simp only [Option.some.injEq] at hs; subst hs
      split
      · exact ⟨by simp [rWaited, RPc.waits], h2⟩
      · exact ⟨fun _ => h1 (by rw [hpc]; rfl), h2⟩
    all_goals
      (try split at hs) <;> simp only [Option.some.injEq, reduceCtorEq] at hs <;> (try split at hs) <;> subst hs <;>
        exact ⟨by simp [rWaited, rReturn, RPc.waits], h2⟩

theorem Reach.looked {N : Nat} (hN : 2 ≤ N) {s : State} (h : Reach N (Paced N) s) : Looked N s :=
  Reach.inv (P := Looked N) ⟨by simp [Ring.init, RPc.waits], by simp [Ring.init]⟩
    (fun _ _ _ hr hi _ hst => hi.step (hr.pos (by omega)) (hr.fifo hN (fun _ _ h => h)) hN hst) h

/-- The operations of the writer leave the reader where it is. -/
theorem writer_keeps {N : Nat} {a : Action} {r r' : State} (ho : a.ofReader = false) (hc : a.isCallR = false)
    (h : step N a r = some r') : r'.rpc = r.rpc ∧ r'.got = r.got := by
  cases a <;> simp [Action.ofReader] at ho <;> simp [Action.isCallR] at hc
  case callW =>
    simp only [step] at h
    split at h <;> simp only [Option.some.injEq, reduceCtorEq] at h
    subst h; exact ⟨rfl, rfl⟩
  case close => simp only [step, Option.some.injEq] at h; subst h; exact ⟨rfl, rfl⟩
  case w =>
    simp only [step, wStep] at h
    split at h <;> (try split at h) <;> simp only [Option.some.injEq, reduceCtorEq] at h <;>
      (try split at h) <;> subst h <;> simp [wReleased, wWaited, wReturn]

/-- What has been made visible to the reader stays so. -/
theorem step_pub {N : Nat} {a : Action} {r r' : State} (hp : Pos N r) (h : step N a r = some r') : r.pub ≤ r'.pub := by
  have := hp.pub_le
  cases a with
  | callW | callR =>
    simp only [step] at h
    split at h <;> simp only [Option.some.injEq, reduceCtorEq] at h
    subst h; exact Nat.le_refl _
  | close => simp only [step, Option.some.injEq] at h; subst h; exact Nat.le_refl _
  | w =>
    simp only [step, wStep] at h
    split at h <;> (try split at h) <;> simp only [Option.some.injEq, reduceCtorEq] at h <;>
      (try split at h) <;> subst h <;> simp [wReleased, wWaited, wReturn] <;> omega
  | r =>
    simp only [step, rStep] at h
    split at h <;> (try split at h) <;> simp only [Option.some.injEq, reduceCtorEq] at h <;>
      (try split at h) <;> subst h <;> simp [rWaited, rReturn] <;> omega
  | handR | handW =>
    simp only [step] at h
    split at h <;> (try split at h) <;> (try split at h) <;> simp only [Option.some.injEq, reduceCtorEq] at h <;>
      subst h <;> simp [wReleased, wWaited, wReturn, rWaited, rReturn]

end Kafka.Ring

namespace Kafka.Conn

open Kafka

/-- What is known of an open connection in the schedules of C25. -/
structure Good (P : Params) (s : State) : Prop where
  reach : Reach P Any s
  stream : Stream s
  pos : Ring.Pos P.ring s.ring
  fifo : Ring.Fifo P.ring s.ring
  calls : Ring.Calls s.ring
  pair : Ring.Pair s.ring
  looked : Ring.Looked P.ring s.ring
  closed : s.ring.closed = false
  cancelled : s.cancelled = false
  crashed : s.crashed = false

/-- `gs` are the frames at the start of what has arrived and is visible to `messageLoop`, and it has not read them all. -/
structure Lags (gs : List (List Byte)) (U : List Byte) (s : State) : Prop where
  parsed : Parsed gs U
  pre : U <+: s.received
  pub : U.length ≤ s.ring.pub
  lt : s.frames.length < gs.length

section
variable {P : Params} {gs : List (List Byte)} {U : List Byte} {s s' : State} {a : Act}

theorem Good.got_pre (h : Good P s) : s.ring.got <+: s.received := by
  rw [← h.stream.given, h.calls.given]
  exact h.fifo.pre.trans (List.prefix_append _ _)

/-- What a `ReadN` is to return has arrived. -/
theorem Lags.ahead (h : Good P s) (hl : Lags gs U s) (hi : s.ring.rpc ≠ .idle) :
    s.ring.taken.length + s.ring.rn ≤ U.length := by
  have htk : s.ring.taken <+: s.received := (by rw [h.calls.taken]; exact List.prefix_append _ _ :
    s.ring.taken <+: s.ring.got).trans h.got_pre
  by_cases hm : (∀ size, s.mpc ≠ .inHead ∧ s.mpc ≠ .inBody size)
  · exact absurd (h.stream.out hm).1 hi
  · by_cases h1 : s.mpc = .inHead
    · obtain ⟨bs, h2, h3, h4⟩ := h.stream.head h1
      rw [if_neg hi, List.append_nil] at h4
      obtain ⟨v, f, _, h6⟩ := h2.next hl.parsed (h4 ▸ htk) hl.pre hl.lt
      have := h6.length_le
      simp only [List.length_append, int32_len] at this
      rw [h4]; omega
    · have : ∃ size, s.mpc = .inBody size := Classical.byContradiction fun hx =>
        hm fun size => ⟨h1, fun hy => hx ⟨size, hy⟩⟩
      obtain ⟨size, h1⟩ := this
      obtain ⟨bs, v, h2, h3, h4, h5⟩ := h.stream.body size h1
      rw [if_neg hi, List.append_nil] at h5
      have hbs : bs <+: s.received := (by rw [h5]; exact List.prefix_append _ _ : bs <+: s.ring.taken).trans htk
      obtain ⟨w, f, h7, h6⟩ := h2.next hl.parsed hbs hl.pre hl.lt
      have hw : v = w := by
        obtain ⟨x, hx⟩ := h5 ▸ htk
        obtain ⟨y, hy⟩ := h6.trans hl.pre
        rw [← hx] at hy
        simp only [List.append_assoc, List.append_cancel_left_eq] at hy
        exact int32_inj (List.append_inj hy (by simp [int32_len])).1.symm
      subst hw
      have := h6.length_le
      simp only [List.length_append, int32_len] at this
      rw [h5, h4, List.length_append, int32_len, h3]
      omega

/-- So `messageLoop` has no reason to wait for more. -/
theorem Lags.byte (h : Good P s) (hl : Lags gs U s) (hi : s.ring.rpc.inBody = true) :
    s.ring.got.length < U.length := by
  have h1 := hl.ahead h (by intro hx; rw [hx] at hi; cases hi)
  have h2 := h.calls.rbody hi
  rw [h.calls.taken, List.length_append, List.length_take]
  have h3 : s.ring.rpc.read s.ring.ri ≤ s.ring.ri := by cases s.ring.rpc <;> simp [Ring.RPc.read]
  omega

/-- How far `messageLoop` is from the next byte it reads. -/
def stage (s : State) : Nat :=
  match s.mpc with
  | .inHead => if s.ring.rpc.late then 40 + s.ring.rpc.stage else s.ring.rpc.stage
  | .inBody _ => 20 + s.ring.rpc.stage
  | .rlock _ _ => 19
  | .lookup _ _ => 18
  | .delete _ _ _ => 17
  | .runlock _ _ => 16
  | .decode _ _ => 15
  | .send _ _ => 14
  | .top => 13
  | .exited => 0

theorem stage_le (s : State) : stage s ≤ 50 := by
  have : s.ring.rpc.stage ≤ 10 := by cases s.ring.rpc <;> simp [Ring.RPc.stage]
  unfold stage
  split <;> (try split) <;> omega

/-- How far it is from having read `n` bytes. -/
def togo (n : Nat) (s : State) : Nat := 60 * (n - s.ring.got.length) + stage s

/-- While there are no more than `n` bytes for `messageLoop` and it is not woken, it comes nearer. -/
theorem Good.togo {n : Nat} (hP : 4 ≤ P.buf) (h : Good P s) (hn : a = .ring .r → s.ring.rpc = .get → s.ring.got.length < n)
    (ht : Trans P s a s') (hc : s'.crashed = false) (hcl : s'.ring.closed = false) (hw : a ≠ .ring .handR) :
    (if a.ofMessage = true then 1 else 0) + togo n s' ≤ togo n s := by
  have hst := h.stream
  cases ht
  case ring a r ha hr =>
    show (if a.ofReader = true then 1 else 0) + _ ≤ _
    cases ho : a.ofReader with
    | false =>
      obtain ⟨h1, h2⟩ := Ring.writer_keeps ho (inRing_calls ha).1 hr
      simp [Conn.togo, stage, h1, h2]
    | true =>
      have h2 := Ring.reader_stage h.pair h.closed ha ho hr (fun hx => hw (by rw [hx]))
      have hidle : s.ring.rpc ≠ .idle := fun hx => ring_idle ha ho hx hr
      rcases h2 with ⟨h2, h3, h4, h5⟩ | ⟨h1, h2, h3⟩
      · have hm : stage { s with ring := r } < stage s := by
          unfold stage
          cases hm : s.mpc
          case inHead =>
            obtain ⟨bs, h6, h7, h8⟩ := hst.head hm
            have hb := h.reach.frames.head hm
            dsimp only
            cases hlate : s.ring.rpc.late with
            | true => rw [if_pos rfl, if_pos (h4 hlate)]; omega
            | false =>
              have h9 := h5 (by omega) hlate
              simp only [h9, Bool.false_eq_true, if_false]
              exact h3
          case inBody size => dsimp only; omega
          all_goals exact absurd (hst.out (by rw [hm]; simp)).1 hidle
        simp only [Conn.togo, h2, if_true]
        omega
      · have := hn (by rw [h1]) h2
        have h4 := stage_le { s with ring := r }
        simp only [Conn.togo, h3, if_true]
        omega
  case read data r _ _ _ hr =>
    obtain ⟨h1, h2⟩ := Ring.writer_keeps rfl rfl hr
    simp [Conn.togo, stage, h1, h2, Act.ofMessage]
  case rbClose k r _ hr =>
    simp only [Ring.step, Option.some.injEq] at hr
    subst hr; cases hcl
  case head r hm _ hr =>
    obtain ⟨_, _, rfl⟩ := ring_callR hr
    simp only [Conn.togo, stage, Act.ofMessage, hm, Ring.RPc.late, Ring.RPc.stage]
    simp
    omega
  case body size r hm hi _ hr =>
    obtain ⟨_, _, rfl⟩ := ring_callR hr
    simp only [Conn.togo, stage, Act.ofMessage, hm, hi, Ring.RPc.late, Ring.RPc.stage]
    simp
    omega
  case stop hm hx => rw [h.cancelled] at hx; cases hx
  all_goals (simp_all [Conn.togo, stage, Act.ofMessage, State.set] <;> omega)

theorem Lags.awake (h : Good P s) (hl : Lags gs U s) (hw : s.ring.rpc.waits = false)
    (ht : Trans P s a s') : s'.ring.rpc.waits = false := by
  cases ht
  case ring a r ha hr =>
    exact Ring.reader_awake h.pos h.fifo ha hr hw (fun hx => Nat.lt_of_lt_of_le (hl.byte h (by rw [hx]; rfl)) hl.pub)
  case read data r _ _ _ hr => rw [(Ring.writer_keeps rfl rfl hr).1]; exact hw
  case rbClose k r _ hr => simp only [Ring.step, Option.some.injEq] at hr; subst hr; exact hw
  case head r hm _ hr => obtain ⟨_, _, rfl⟩ := ring_callR hr; rfl
  case body size r hm hi _ hr => obtain ⟨_, _, rfl⟩ := ring_callR hr; rfl
  all_goals exact hw

/-- `messageLoop` can go on, if it does not wait and nobody holds `readLock`. -/
theorem Good.canGo (h : Good P s) (hw : s.ring.rpc ≠ .waitSend)
    (hr : s.readLock = none) (hm : s.mpc ≠ .exited) : CanGo P s .message := by
  have hf := h.reach.frames
  have hk := h.reach.tokens
  have hc := h.crashed
  have ring : s.ring.rpc ≠ .idle → CanGo P s .message := fun hi => by
    cases hp : s.ring.rpc with
    | idle => exact absurd hp hi
    | waitSend => exact absurd hp hw
    | relRecv | frelRecv =>
      have := h.pair.wrel (by rw [hp]; rfl)
      exact ⟨.ring .handW, rfl, by simp [step, hc, inRing, Ring.step, this, hp]⟩
    | _ =>
      refine ⟨.ring .r, rfl, ?_⟩
      by_cases hfull : full s = true
      · simp [step, hc, hfull]
      · simp [step, hc, inRing, hfull, Ring.step, Ring.rStep, hp]
  by_cases hin : s.mpc = .inHead ∨ ∃ size, s.mpc = .inBody size
  · by_cases hi : s.ring.rpc = .idle
    · refine ⟨.message, rfl, ?_⟩
      rw [step_message hc]
      rcases hin with hm | ⟨size, hm⟩
      · simp only [messageStep, hm, if_pos hi]
        cases headSize s.ring.rdst with
        | none => rfl
        | some size =>
          have h1 : min size.toNat (s.ring.rdst.length + 1) ≤ (room s.ring.rdst size).length := by
            rw [room_length]; split <;> omega
          simp [readN, Ring.step, hi, h1]
      · simp only [messageStep, hm, if_pos hi]
        split
        · rfl
        · split <;> rfl
    · exact ring hi
  · have hi := (h.stream.out (fun size => ⟨fun hx => hin (.inl hx), fun hx => hin (.inr ⟨size, hx⟩)⟩)).1
    refine ⟨.message, rfl, ?_⟩
    rw [step_message hc]
    cases hm' : s.mpc with
    | exited => exact absurd hm' hm
    | inHead => exact absurd (.inl hm') hin
    | inBody size => exact absurd (.inr ⟨size, hm'⟩) hin
    | top => simp [messageStep, hm', h.cancelled, readN, Ring.step, hi, Nat.min_le_right]
    | rlock id d => simp [messageStep, hm', hr]
    | lookup id d => simp [messageStep, hm']
    | delete id d c => simp [messageStep, hm']
    | runlock d c => cases c <;> simp [messageStep, hm']
    | decode d c => simp only [messageStep, hm']; split <;> rfl
    | send d c => simp [messageStep, hm', (hk.taken c (by rw [hm']; rfl)).2.1]

theorem Trans.frames (ht : Trans P s a s') : s.frames <+: s'.frames := by
  cases ht <;> simp [State.set]

theorem Trans.received (ht : Trans P s a s') : s.received <+: s'.received := by
  cases ht <;> simp [State.set]

theorem Trans.pub (h : Good P s) (ht : Trans P s a s') : s.ring.pub ≤ s'.ring.pub := by
  cases ht
  case ring a r _ hr => exact Ring.step_pub h.pos hr
  case head r _ _ hr => exact Ring.step_pub h.pos hr
  case body size r _ _ _ hr => exact Ring.step_pub h.pos hr
  case read data r _ _ _ hr => exact Ring.step_pub h.pos hr
  case rbClose k r _ hr => exact Ring.step_pub h.pos hr
  all_goals exact Nat.le_refl _

/-- `messageLoop` only stops when it is told to. -/
theorem Trans.goes (h : s.cancelled = false) (ht : Trans P s a s') (hm : s.mpc ≠ .exited) : s'.mpc ≠ .exited := by
  cases ht <;> simp_all [State.set]

end

section
variable {P : Params} {st : Nat → State} {act : Nat → Option Act}

/-- `messageLoop` reads the frames that are visible to it. -/
theorem Fair.reads (hP : 4 ≤ P.buf) (hf : Fair P st act) (h : Exec P st act) (hg : ∀ m, Good P (st m)) {n : Nat}
    (hw : (st n).ring.rpc.waits = false) (hm : (st n).mpc ≠ .exited) {gs : List (List Byte)} {U : List Byte}
    (hp : Parsed gs U) (hU : U <+: (st n).received) (hpub : U.length ≤ (st n).ring.pub) :
    ∃ m, n ≤ m ∧ gs.length ≤ (st m).frames.length := by
  refine Classical.byContradiction fun hno => ?_
  have hlag : ∀ m, n ≤ m → Lags gs U (st m) := by
    have h1 := h.keep (I := fun s => U <+: s.received) (n := n) (fun m _ a _ ht hi => hi.trans ht.received) hU
    have h2 := h.keep (I := fun s => U.length ≤ s.ring.pub) (n := n) (fun m _ a _ ht hi => Nat.le_trans hi (ht.pub (hg m))) hpub
    exact fun m hm => ⟨hp, h1 m hm, h2 m hm, Nat.lt_of_not_le fun hx => hno ⟨m, hm, hx⟩⟩
  have hwait : ∀ m, n ≤ m → (st m).ring.rpc.waits = false :=
    h.keep (I := fun s => s.ring.rpc.waits = false) (fun m hm a _ ht hi => (hlag m hm).awake (hg m) hi ht) hw
  have hgo : ∀ m, n ≤ m → (st m).mpc ≠ .exited :=
    h.keep (I := fun s => s.mpc ≠ .exited) (fun m hm a _ ht hi => ht.goes (hg m).cancelled hi) hm
  obtain ⟨k, hk, hstop⟩ := hf.stops h .message (togo U.length) (n := n) (fun m hm a ht =>
    (hg m).togo hP (fun _ hx => (hlag m hm).byte (hg m) (by rw [hx]; rfl)) ht (hg (m + 1)).crashed (hg (m + 1)).closed (by
      rintro rfl
      have h1 := hwait m hm
      generalize st (m + 1) = s' at ht
      cases ht with | ring _ r _ hr =>
        simp only [Ring.step] at hr
        split at hr
        · rename_i hx; rw [hx] at h1; cases h1
        · cases hr))
  obtain ⟨m, hm, hr⟩ := hf.freeR hP h (fun m => (hg m).crashed) k
  exact (hstop m hm).1 ((hg m).canGo (fun hx => by have := hwait m (by omega); rw [hx] at this; cases this) hr (hgo m (by omega)))

/-- The operations of others leave the reader where it is. -/
theorem Trans.rpc {s s' : State} {a : Act} (ht : Trans P s a s') (ha : a.ofMessage = false) : s'.ring.rpc = s.ring.rpc := by
  cases ht
  case ring a r hb hr => exact (Ring.writer_keeps ha (inRing_calls hb).1 hr).1
  case read data r _ _ _ hr => exact (Ring.writer_keeps rfl rfl hr).1
  case rbClose k r _ hr => simp only [Ring.step, Option.some.injEq] at hr; subst hr; rfl
  case head => cases ha
  case body => cases ha
  all_goals rfl

/-- `readLoop` hands over to `messageLoop` what has been received; or else both wait for each other for ever. -/
theorem Fair.publishes (hP : 4 ≤ P.buf) (hf : Fair P st act) (h : Exec P st act) (hg : ∀ m, Good P (st m))
    (hpace : ∀ m, act m = some (.ring .r) → Ring.Paced P.ring (st m).ring .r) {n : Nat} (hm : (st n).mpc ≠ .exited) {B : Nat}
    (hB : B ≤ (st n).received.length) : (∃ m, n ≤ m ∧ B ≤ (st m).ring.pub) ∨
      ∃ k, n ≤ k ∧ ∀ m, k ≤ m → (st m).ring.rpc = .waitSend ∧ (st m).ring.wpc = .waitSend := by
  by_cases hx : ∃ m, n ≤ m ∧ B ≤ (st m).ring.pub
  · exact .inl hx
  refine .inr ?_
  have hlt : ∀ m, n ≤ m → (st m).ring.pub < B := fun m hm => Nat.lt_of_not_le fun hy => hx ⟨m, hm, hy⟩
  have hBm := h.keep (I := fun s => B ≤ s.received.length) (n := n)
    (fun m _ a _ ht hi => Nat.le_trans hi ht.received.length_le) hB
  -- `readLoop` is in one `WriteN`
  have hw : ∀ m, n ≤ m → (st m).ring.wpc ≠ .idle := fun m hm hi => by
    have h1 := (hg m).pos.wpub (by rw [hi]; rfl)
    have h2 := congrArg List.length ((hg m).stream.given.symm.trans (hg m).calls.given)
    rw [hi] at h2
    simp [Ring.WPc.wrote] at h2
    have := hlt m hm
    have := hBm m hm
    omega
  have hl : ∀ m, n ≤ m → (st m).lpc = .inWrite := fun m hm =>
    Classical.byContradiction fun hy => hw m hm ((hg m).reach.writer hy)
  -- which comes to where it waits
  obtain ⟨k, hk, hstop⟩ := hf.stops h .read (fun s => Ring.wCost s.ring) (n := n) (fun m hm a ht => by
    have h1 := hw m hm
    have h2 := hl m hm
    generalize st (m + 1) = s' at ht
    cases ht
    case ring b r hb hr => exact Ring.step_wCost (inRing_calls hb).2 hr
    case read data r hl' _ _ hr => rw [h2] at hl'; cases hl'
    case readErr _ hl' _ _ => rw [h2] at hl'; cases hl'
    case readNext hl' hi => exact absurd hi h1
    case head r _ _ hr => obtain ⟨_, _, rfl⟩ := ring_callR hr; simp [Act.by, Act.ofRead, Ring.wCost]
    case body size r _ _ _ hr => obtain ⟨_, _, rfl⟩ := ring_callR hr; simp [Act.by, Act.ofRead, Ring.wCost]
    case rbClose k r _ hr =>
      simp only [Ring.step, Option.some.injEq] at hr; subst hr; simp [Act.by, Act.ofRead, Ring.wCost]
    all_goals simp [Act.by, Act.ofRead, Ring.Action.ofWriter, State.set])
  have hwait : ∀ m, k ≤ m → (st m).ring.wpc = .waitSend := fun m hm => by
    refine Classical.byContradiction fun hy => (hstop m hm).1 ⟨?_, fun hl' => by rw [hl m (by omega)] at hl'; cases hl'⟩
    have hc := (hg m).crashed
    cases hp : (st m).ring.wpc with
    | idle => exact absurd hp (hw m (by omega))
    | waitSend => exact absurd hp hy
    | relRecv | frelRecv =>
      have hr := (hg m).pair.rrel (by rw [hp]; rfl)
      exact ⟨.ring .handR, rfl, by simp [Conn.step, hc, inRing, Ring.step, hp, hr]⟩
    | _ => exact ⟨.ring .w, rfl, by simp [Conn.step, hc, inRing, Ring.step, Ring.wStep, hp]⟩
  -- and `messageLoop` reads what there is, and waits
  have hgo : ∀ m, n ≤ m → (st m).mpc ≠ .exited :=
    h.keep (I := fun s => s.mpc ≠ .exited) (fun m hm a _ ht hi => ht.goes (hg m).cancelled hi) hm
  obtain ⟨j, hj, hend⟩ := hf.stops' h .message (togo B) (n := k) (fun m hm a ha ht =>
    (hg m).togo hP (fun hx hp => by
      subst hx
      have h1 := hlt m (by omega)
      have h2 := (hg m).pos.rpub_le
      cases hr : (st m).ring.rres with
      | false => have := (hg m).fifo.rget hp hr; omega
      | true => have : Ring.Data (st m).ring := hpace m ha hr hp
                unfold Ring.Data at this; omega)
      ht (hg (m + 1)).crashed (hg (m + 1)).closed (by
      rintro rfl
      have h1 := hwait m hm
      generalize st (m + 1) = s' at ht
      cases ht with | ring _ r _ hr => simp [Ring.step, h1] at hr))
  obtain ⟨i, hi, hr⟩ := hf.freeR hP h (fun m => (hg m).crashed) j
  have h0 : (st i).ring.rpc = .waitSend :=
    Classical.byContradiction fun hy => (hend i hi).1 ((hg i).canGo hy hr (hgo i (by omega)))
  refine ⟨i, by omega, fun m hm => ⟨?_, hwait m (by omega)⟩⟩
  exact h.keep (I := fun s => s.ring.rpc = .waitSend) (n := i) (fun m hm a ha ht hi => by
    rw [ht.rpc ((hend m (by omega)).2 a ha)]; exact hi) h0 m hm

/-- Where `messageLoop` can go on outside the ring buffer, it does. -/
theorem Fair.move (hP : 4 ≤ P.buf) (hf : Fair P st act) (h : Exec P st act) (X : MPc) (Q : State → Prop) {n : Nat}
    (hX : ∀ size, X ≠ .inHead ∧ X ≠ .inBody size)
    (hready : (∀ m, n ≤ m → (st m).mpc = X) → ∀ k, ∃ m, k ≤ m ∧ n ≤ m ∧ (Conn.step P .message (st m)).isSome)
    (hQ : ∀ m, n ≤ m → Trans P (st m) .message (st (m + 1)) → (st m).mpc = X → Q (st (m + 1))) (h0 : (st n).mpc = X) :
    ∃ m, n ≤ m ∧ Q (st m) := by
  have own : ∀ m, n ≤ m → ∀ a, a.by .message = true → Trans P (st m) a (st (m + 1)) → (st m).mpc = X → Q (st (m + 1)) := by
    intro m hm a ha ht hi
    have hidle : (st m).ring.rpc = .idle := (((h.reach m).stream hP).out (by rw [hi]; exact hX)).1
    cases a <;> simp [Act.by, Act.ofMessage] at ha
    case message => exact hQ _ hm ht hi
    case ring a =>
      generalize st (m + 1) = s' at ht
      cases ht with
      | ring _ r hin hst => exact absurd hst (ring_idle hin ha hidle)
      | full hfull => simp [full, hidle] at hfull
  refine hf.step h .message (fun s => s.mpc = X) Q (fun hI k => ?_) ?_ own h0
  · obtain ⟨m, h1, h2, h3⟩ := hready hI k
    exact ⟨m, h1, .message, rfl, h3⟩
  · intro m hm a ht hi
    cases ha : a.ofMessage with
    | true => exact .inr (own m hm a ha ht hi)
    | false => exact .inl (by rw [ht.mpc ha]; exact hi)

/-- The same where the next operation is possible. -/
theorem Fair.moveReady (hP : 4 ≤ P.buf) (hf : Fair P st act) (h : Exec P st act) (hc : ∀ m, (st m).crashed = false) (X : MPc)
    (Q : State → Prop) {n : Nat} (hX : ∀ size, X ≠ .inHead ∧ X ≠ .inBody size)
    (hready : ∀ s, Reach P Any s → s.mpc = X → (messageStep P s).isSome)
    (hQ : ∀ m, n ≤ m → Trans P (st m) .message (st (m + 1)) → (st m).mpc = X → Q (st (m + 1))) (h0 : (st n).mpc = X) :
    ∃ m, n ≤ m ∧ Q (st m) :=
  hf.move hP h X Q hX (fun hI k => ⟨max n k, Nat.le_max_right _ _, Nat.le_max_left _ _, by
    rw [step_message (hc _)]; exact hready _ (h.reach _) (hI _ (Nat.le_max_left _ _))⟩) hQ h0

/-- A call whose reply is being dispatched gets it. -/
theorem Fair.sends (hP : 4 ≤ P.buf) (hf : Fair P st act) (h : Exec P st act) (hc : ∀ m, (st m).crashed = false) {n c : Nat}
    (ht : (st n).mpc.taken = some c) : ∃ m d, n ≤ m ∧ ((st m).calls c).chan = some d := by
  have send : ∀ n d, (st n).mpc = .send d c → ∃ m, n ≤ m ∧ ∃ d, ((st m).calls c).chan = some d := by
    intro n d hp
    refine hf.moveReady hP h hc (.send d c) (fun s => ∃ d, (s.calls c).chan = some d) (by simp) (fun s hr hi => ?_)
      (fun m _ ht hi => ?_) hp
    · simp [messageStep, hi, (hr.tokens.taken c (by rw [hi]; rfl)).2.1]
    · generalize st (m + 1) = s' at ht
      cases ht <;> simp_all [State.set]
  have dec : ∀ n d, (st n).mpc = .decode d c → ∃ m, n ≤ m ∧ ∃ d, ((st m).calls c).chan = some d := by
    intro n d hp
    obtain ⟨m, hm, d', hp'⟩ := hf.moveReady hP h hc (.decode d c) (fun s => ∃ d, s.mpc = .send d c) (by simp) (fun s hr hi => by
        simp only [messageStep, hi]; split <;> rfl)
      (fun m _ ht hi => by
        have hcr := hc (m + 1)
        generalize st (m + 1) = s' at ht hcr
        cases ht <;> simp_all [State.set]) hp
    obtain ⟨m', hm', hp''⟩ := send m d' hp'
    exact ⟨m', Nat.le_trans hm hm', hp''⟩
  have run : ∀ n d, (st n).mpc = .runlock d (some c) → ∃ m, n ≤ m ∧ ∃ d, ((st m).calls c).chan = some d := by
    intro n d hp
    obtain ⟨m, hm, d', hp'⟩ := hf.moveReady hP h hc (.runlock d (some c)) (fun s => ∃ d, s.mpc = .decode d c) (by simp)
      (fun s hr hi => by simp [messageStep, hi])
      (fun m _ ht hi => by generalize st (m + 1) = s' at ht; cases ht <;> simp_all [State.set]) hp
    obtain ⟨m', hm', hp''⟩ := dec m d' hp'
    exact ⟨m', Nat.le_trans hm hm', hp''⟩
  have : ∃ m, n ≤ m ∧ ∃ d, ((st m).calls c).chan = some d := by
    cases hp : (st n).mpc <;> simp [hp, MPc.taken] at ht
    all_goals subst ht
    · exact run n _ hp
    · exact dec n _ hp
    · exact send n _ hp
  obtain ⟨m, hm, d, hd⟩ := this
  exact ⟨m, d, hm, hd⟩

/-- What has been decoded for a call is on its way to it, or has been returned. -/
theorem Reach.decoded {ok : State → Act → Prop} {s : State} (h : Reach P ok s) (c : Nat) (hd : (s.calls c).decodes = 1) :
    s.mpc.taken = some c ∨ (s.calls c).chan ≠ none ∨ (s.calls c).pc.replied = true := by
  refine h.inv (I := fun s => (s.calls c).decodes = 1 →
    s.mpc.taken = some c ∨ (s.calls c).chan ≠ none ∨ (s.calls c).pc.replied = true) (by simp [Conn.init]) ?_ hd
  intro s s' a hr hi hok ht
  clear hok
  have hk := hr.tokens
  have h1 := hk.taken c
  have h2 := hk.before c
  have h3 := hk.replied c
  cases ht <;> simp only [State.set] <;> grind [MPc.taken, MPc.sending, CPc.replied, CPc.registered]

end

end Kafka.Conn
