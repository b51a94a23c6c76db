import Verif.Props.Close
/-!
Property C56: data races.
-/
set_option linter.unusedSimpArgs false

namespace Kafka.Props

open Conn

/-- The goroutines: callers of `Do`, `messageLoop`, `readLoop`. -/
inductive Gor where
  | caller (c : Nat)
  | message
  | read
deriving DecidableEq

/-- Memory that several goroutines use without atomic operations. -/
inductive Loc where
  /-- the map `c.requests` -/
  | requests
  /-- the encoder and its `bufio.Writer` -/
  | encoder
  /-- a byte of the ring buffer -/
  | cell (j : Nat)
  /-- the variable `resp` of the broker method that made call `c`, written by its decode function -/
  | resp (c : Nat)

/-- The next operation of goroutine `g` is `a`, and accesses `l`, writing if `w`. -/
inductive Access (s : Conn.State) : (g : Gor) → (a : Act) → (l : Loc) → (w : Bool) → Prop where
  /-- gen.conn.go:161 -/
  | insert (c : Nat) : (s.calls c).pc = .insert → Access s (.caller c) (.call c) .requests true
  /-- gen.conn.go:165 -/
  | encode (c : Nat) : (s.calls c).pc = .encode → Access s (.caller c) (.call c) .encoder true
  /-- gen.conn.go:165-166 -/
  | written (c : Nat) : (s.calls c).pc = .writing [] → Access s (.caller c) (.call c) .encoder true
  | write (c k : Nat) (rest : List Byte) : (s.calls c).pc = .writing rest → Access s (.caller c) (.write c k) .encoder true
  | writeErr (c k : Nat) (e : WErr) (rest : List Byte) : (s.calls c).pc = .writing rest →
      Access s (.caller c) (.writeErr c k e) .encoder true
  /-- gen.conn.go:167-170, then `return resp, err` of the method -/
  | failed (c : Nat) (e : WErr) : (s.calls c).pc = .wunlock (some e) → Access s (.caller c) (.call c) (.resp c) false
  /-- gen.conn.go:173, then `return resp, err` of the method -/
  | recv (c : Nat) (d : Decoder) : (s.calls c).pc = .recv → (s.calls c).chan = some d →
      Access s (.caller c) (.call c) (.resp c) false
  /-- ring/buffer.go:147 -/
  | get : s.ring.rpc = .get → Access s .message (.ring .r) (.cell s.ring.rpos) false
  /-- gen.conn.go:140 -/
  | lookup (id : Int32) (d : Decoder) : s.mpc = .lookup id d → Access s .message .message .requests false
  /-- gen.conn.go:141 -/
  | delete (id : Int32) (d : Decoder) (c : Option Nat) : s.mpc = .delete id d c → Access s .message .message .requests true
  /-- gen.conn.go:145 -/
  | decode (d : Decoder) (c : Nat) : s.mpc = .decode d c → Access s .message .message (.resp c) true
  /-- ring/buffer.go:96 -/
  | put : s.ring.wpc = .put → Access s .read (.ring .w) (.cell s.ring.wpos) true

/-- Two goroutines are about to access the same memory, one of them writing: a data race, in schedules with steps `ok`. -/
def Race (ok : Conn.State → Act → Prop) (s : Conn.State) : Prop :=
  ∃ g g' a a' l w, g ≠ g' ∧ Access s g a l true ∧ Access s g' a' l w ∧ ok s a ∧ ok s a'

/-- The full claim: no execution has a data race. -/
def C56_statement (P : Params) (ok : Conn.State → Act → Prop) : Prop := ∀ s, Conn.Reach P ok s → ¬Race ok s

/-- The only data races there can be: on a byte of the ring buffer, and on the result of a call whose request could not be
written and is answered all the same.  In particular none on the map of requests and on the encoder. -/
theorem C56_only {P : Params} {ok : Conn.State → Act → Prop} {s : Conn.State} (h : Conn.Reach P ok s) (hr : Race ok s) :
    (s.ring.rpc = .get ∧ s.ring.wpc = .put ∧ s.ring.rpos = s.ring.wpos ∧ ok s (.ring .r) ∧ ok s (.ring .w)) ∨
    ∃ c e d, (s.calls c).pc = .wunlock (some e) ∧ s.mpc = .decode d c := by
  obtain ⟨g, g', a, a', l, w, hg, h1, h2, o1, o2⟩ := hr
  have hl := h.locks
  have callR : ∀ {c}, (s.calls c).pc.holdsR = true → s.readLock = some (.call c) := fun {c} => (hl.callR c).1
  have callW : ∀ {c}, (s.calls c).pc.holdsW = true → s.writeLock = some c := fun {c} => (hl.callW c).1
  have loopR := hl.loopR.1
  have ht := h.tokens.taken
  generalize he : l = l' at h2
  generalize hw : true = w' at h1
  clear hl
  cases h1 <;> cases h2 <;> first | grind | grind [CPc.holdsR, CPc.holdsW, MPc.holdsR, MPc.taken]

/-- No call has failed to write. -/
def NoFault (s : Conn.State) : Prop := ∀ c e, (s.calls c).pc ≠ .wunlock (some e)

/-- The ring buffer is used as in C25 and the connection takes the bytes it is given. -/
def PacedSound (P : Params) (s : Conn.State) (a : Act) : Prop := PacedConn P s a ∧ ∀ c k e, a ≠ .writeErr c k e

/-- The connection takes the bytes it is given. -/
def Sound (_ : Conn.State) (a : Act) : Prop := ∀ c k e, a ≠ .writeErr c k e

/-- In the ring buffer, as used in C25, the byte being written is not the one being read. -/
theorem ring_cells {N : Nat} {s : Ring.State} (hf : Ring.Fifo N s) (hp : Ring.Pos N s) (hr : s.rpc = .get) (hw : s.wpc = .put)
    (hok : Ring.Paced N s .r) : s.rpos ≠ s.wpos := by
  rw [hp.rpos (by rw [hr]; rfl), hp.wpos (by rw [hw]; rfl)]
  have h1 : s.got.length < s.pub := by
    cases hres : s.rres
    · exact Nat.lt_of_lt_of_le (hf.rget hr hres) hp.rpub_le
    · exact hok hres hr
  have := hp.pub_le
  have := hp.rel_le
  have := hf.room
  intro hc
  have := Ring.mod_inj (by omega) (by omega) hc
  omega

/-- There are none in executions in which the ring buffer is used as in C25 and no write to the connection fails.  Missing for
the full claim: other executions. -/
theorem C56_partial {P : Params} (hN : 2 ≤ P.ring) : C56_statement P (PacedSound P) := by
  intro s h hr
  rcases C56_only h hr with ⟨h1, h2, h3, h4, _⟩ | ⟨c, e, d, h1, _⟩
  · have hring : Ring.Reach P.ring (Ring.Paced P.ring) s.ring :=
      h.ring (fun s a ho => ho.1) (fun r a ha => by cases a <;> simp_all [inRing, Ring.Paced])
    exact ring_cells (hring.fifo hN fun _ _ h => h) (hring.pos (by omega)) h1 h2 h4.1 h3
  · have : NoFault s ∧ s.werr = none := by
      clear h1 hr
      refine h.inv (I := fun s => NoFault s ∧ s.werr = none) ⟨by simp [NoFault, Conn.init], rfl⟩ ?_
      intro s s' a _ ⟨hi, hj⟩ hok ht
      have hne := hok.2
      clear hok
      refine ⟨fun j e => ?_, ?_⟩
      · have := hi j e
        cases ht <;> simp only [State.set] <;> grind
      · cases ht <;> simp only [State.set] <;> grind
    exact this.1 c e h1

/-- Two calls are registered, `messageLoop` reads while `readLoop` writes: both are in the ring buffer, neither waits. -/
example : ∃ s, Conn.Reach small (PacedSound small) s ∧ s.ring.rpc = .get ∧ s.ring.wpc = .put ∧ (s.calls 0).pc = .recv ∧
    (s.calls 1).pc = .encode := by
  let sch : List Act := callDo 0 ++ [.start 1 sampleJob] ++ List.replicate 5 (.call 1) ++ deliver [0, 0, 0, 4, 0, 0, 0, 1] ++
    [.message, .ring .r, .ring .r, .read [0, 0, 0, 4, 0, 0, 0, 2], .ring .w, .ring .w]
  have h : ((Conn.run small sch (Conn.init small)).any fun s => match s.ring.rpc, s.ring.wpc, (s.calls 0).pc, (s.calls 1).pc with
      | .get, .put, .recv, .encode => true
      | _, _, _, _ => false) = true := by decide +kernel
  have ht : ∀ x ∈ connTrace small sch (Conn.init small), PacedConn small x.1 x.2 := by decide +kernel
  have hs : ∀ x ∈ connTrace small sch (Conn.init small), ∀ c k e, x.2 ≠ .writeErr c k e := by
    intro x hx c k e he
    have h1 : ((connTrace small sch (Conn.init small)).all fun x => match x.2 with | .writeErr _ _ _ => false | _ => true) = true := by
      decide +kernel
    have h2 := List.all_eq_true.1 h1 x hx
    rw [he] at h2
    cases h2
  obtain ⟨s, h1, h2⟩ := (Option.any_eq_true _ _).1 h
  refine ⟨s, connReach_trace sch .init (fun x hx => ⟨ht x hx, hs x hx⟩) h1, ?_⟩
  split at h2
  · exact ⟨by assumption, by assumption, by assumption, by assumption⟩
  · cases h2

/-- The peer sends two bytes of a length; `messageLoop`, woken, goes on to the third while `readLoop` writes it. -/
def overrun : List Act :=
  [.message, .ring .r, .ring .r, .ring .r, .ring .r, .ring .r,
   .read [0, 0], .ring .w, .ring .w, .ring .w, .ring .w, .ring .w, .ring .w, .ring .handR,
   .ring .r, .ring .r, .readNext, .read [0, 4], .ring .w, .ring .w]

/-- The claim is false at every size: when the bytes of a frame arrive in two parts, `messageLoop` may read a byte of the
ring buffer while `readLoop` writes it. -/
theorem C56_ring_fails {P : Params} (hN : 16 ≤ P.ring) (hP : 8 ≤ P.buf) : ¬C56_statement P Sound := by
  intro h0
  suffices h : ∃ s, Conn.Reach P Sound s ∧ Race Sound s by
    obtain ⟨s, h1, h2⟩ := h
    exact h0 s h1 h2
  clear h0
  obtain ⟨N, B⟩ := P
  obtain ⟨M, rfl⟩ := Nat.exists_eq_add_of_le' hN
  obtain ⟨B, rfl⟩ := Nat.exists_eq_add_of_le' hP
  refine RunsTo.reach (as := overrun) .init ?_
  unfold overrun Conn.init Ring.init
  iterate 20 refine ⟨(by simp [Sound]), _, (by
    simp [Conn.step, messageStep, readN, inRing, Ring.step, Ring.rStep, Ring.wStep, Ring.rLoop, Ring.wLoop, Ring.rWaited,
      Ring.wReturn, Ring.rReturn, Ring.incr, List.replicate_succ]; rfl), ?_⟩
  exact ⟨.read, .message, _, _, .cell 2, false, by simp, .put rfl, .get rfl, by simp [Sound], by simp [Sound]⟩

/-- All bytes of a request are sent, but the write reports an error; the peer answers. -/
def lateReply : List Act :=
  [.start 0 sampleJob] ++ List.replicate 6 (.call 0) ++ [.writeErr 0 4 ⟨7⟩] ++ deliver [0, 0, 0, 4, 0, 0, 0, 1] ++ fetch ++
  List.replicate 4 .message

/-- It is false at every size, even if nobody runs ahead in the ring buffer: when the write of a request reports an error but
the peer has it and answers, `messageLoop` may write the result of the method while the method returns it. -/
theorem C56_reply_fails {P : Params} (hN : 16 ≤ P.ring) (hP : 8 ≤ P.buf) : ¬C56_statement P (PacedConn P) := by
  obtain ⟨N, B⟩ := P
  obtain ⟨M, rfl⟩ := Nat.exists_eq_add_of_le' hN
  obtain ⟨B, rfl⟩ := Nat.exists_eq_add_of_le' hP
  have ew : Wire.int32 1 = [0, 0, 0, 1] := by rw [wire_int32]; rfl
  intro h0
  have h : ∃ s, Conn.Reach ⟨M + 16, B + 8⟩ (PacedConn ⟨M + 16, B + 8⟩) s ∧ Race (PacedConn ⟨M + 16, B + 8⟩) s := by
    refine RunsTo.reach (as := lateReply) .init ?_
    unfold lateReply deliver fetch Conn.init Ring.init sampleJob
    simp only [List.replicate, List.cons_append, List.nil_append]
    iterate 8 refine ⟨trivial, _, (by simp [Conn.step, callStep, State.set, upd, ew]; rfl), ?_⟩
    iterate 14 refine ⟨(by simp [PacedConn, Ring.Paced]), _, (by
      simp [Conn.step, inRing, Ring.step, Ring.wStep, Ring.wLoop, Ring.wReturn, Ring.incr]; rfl), ?_⟩
    iterate 18 refine ⟨(by simp [PacedConn, Ring.Paced]), _, (by
      simp [Conn.step, messageStep, readN, inRing, Ring.step, Ring.rStep, Ring.rLoop, Ring.rReturn, Ring.incr, List.replicate_succ]; rfl), ?_⟩
    iterate 5 refine ⟨trivial, _, (by simp [Conn.step, messageStep, upd, State.set]; rfl), ?_⟩
    exact ⟨.message, .caller 0, _, _, .resp 0, false, by simp, .decode _ 0 rfl, .failed 0 _ rfl, trivial, trivial⟩
  obtain ⟨s, h1, h2⟩ := h
  exact h0 s h1 h2

end Kafka.Props
