import Verif.Props.Conn
import Verif.Client.Lemmas
/-!
Property C70: calls made one at a time.  It connects the model of a connection (Verif.Conn), with all its goroutines, and
the model of client.go (Verif.Client), in which a call is one step.
-/
namespace Kafka.Props

open Kafka Kafka.Conn Kafka.Client

/-- Calls are made one at a time: when one is made, those before have returned. -/
def OneByOne (s : Conn.State) : Act → Prop
  | .start c _ => (∀ j, j < c → ∃ o, (s.calls j).pc = .done o) ∧ ∀ j, c ≤ j → (s.calls j).pc = .absent
  | _ => True

/-- Where a call is that has begun to encode its request. -/
def _root_.Kafka.Conn.CPc.begun : CPc → Bool
  | .writing _ | .wunlock _ | .recv | .done _ => true
  | _ => false

/-- Invariant: call `m` is the last one, and `k` calls have begun to write. -/
structure Line (m k : Nat) (s : Conn.State) : Prop where
  before : ∀ j, j < m → ∃ o, (s.calls j).pc = .done o
  after : ∀ j, m < j → (s.calls j).pc = .absent
  count : s.count = if (s.calls m).pc.numbered then m + 1 else m
  seq : ∀ j, (s.calls j).pc.numbered = true → (s.calls j).seq = j + 1
  started : s.started = List.range k
  all : s.werr = none → k = if (s.calls m).pc.begun then m + 1 else m
  some : k ≤ if (s.calls m).pc.begun then m + 1 else m

theorem line {P : Params} {s : Conn.State} (h : Conn.Reach P OneByOne s) : ∃ m k, Line m k s := by
  refine h.inv (I := fun s => ∃ m k, Line m k s) ⟨0, 0, by constructor <;> simp [Conn.init, CPc.numbered, CPc.begun]⟩ ?_
  intro s s' a hr ⟨m, k, hi⟩ hok ht
  obtain ⟨h1, h2, h3, h4, h5, h6, h7⟩ := hi
  have only : ∀ c, (∀ o, (s.calls c).pc ≠ .done o) → (s.calls c).pc ≠ .absent → c = m := by
    intro c hd ha
    rcases Nat.lt_trichotomy c m with hlt | rfl | hgt
    · obtain ⟨o, ho⟩ := h1 c hlt; exact absurd ho (hd o)
    · rfl
    · exact absurd (h2 c hgt) ha
  have keep : ∀ (s' : Conn.State), (∀ j, (s'.calls j).pc = (s.calls j).pc ∧ (s'.calls j).seq = (s.calls j).seq) → s'.count = s.count →
      s'.started = s.started → s'.werr = s.werr → ∃ m k, Line m k s' := by
    intro s' e1 e2 e3 e4
    refine ⟨m, k, ?_, ?_, ?_, ?_, ?_, ?_, ?_⟩
    · intro j hj; rw [(e1 j).1]; exact h1 j hj
    · intro j hj; rw [(e1 j).1]; exact h2 j hj
    · rw [(e1 m).1, e2]; exact h3
    · intro j; rw [(e1 j).1, (e1 j).2]; exact h4 j
    · rw [e3]; exact h5
    · rw [(e1 m).1, e4]; exact h6
    · rw [(e1 m).1]; exact h7
  have move : ∀ (k' : Nat) (s' : Conn.State) (x : CState), (∀ j, s'.calls j = if j = m then x else s.calls j) →
      (x.pc.numbered = true → x.seq = m + 1) →
      (s'.count = if x.pc.numbered then m + 1 else m) → s'.started = List.range k' →
      (s'.werr = none → k' = if x.pc.begun then m + 1 else m) →
      (k' ≤ if x.pc.begun then m + 1 else m) → ∃ m k, Line m k s' := by
    intro k' s' x e1 e2 e3 e4 e5 e6
    refine ⟨m, k', ?_, ?_, ?_, ?_, e4, ?_, ?_⟩
    · intro j hj; rw [e1, if_neg (by omega)]; exact h1 j hj
    · intro j hj; rw [e1, if_neg (by omega)]; exact h2 j hj
    · rw [e1, if_pos rfl]; exact e3
    · intro j; rw [e1]; split
      · rename_i e; subst e; exact e2
      · exact h4 j
    · rw [e1, if_pos rfl]; exact e5
    · rw [e1, if_pos rfl]; exact e6
  have adv : ∀ (c : Nat) (s' : Conn.State) (x : CState), (s.calls c).pc.numbered = true → (∀ o, (s.calls c).pc ≠ .done o) →
      (∀ j, s'.calls j = if j = c then x else s.calls j) → x.pc.numbered = true → x.seq = (s.calls c).seq → s'.count = s.count →
      s'.started = s.started → (x.pc.begun = (s.calls c).pc.begun ∧ s'.werr = s.werr ∨ s'.werr ≠ none ∧ x.pc.begun = true) →
      ∃ m k, Line m k s' := by
    intro c s' x e1 e2 e3 e4 e5 e6 e7 e8
    obtain rfl := only c e2 (by intro h; rw [h] at e1; cases e1)
    rw [e1] at h3
    refine move k s' x e3 (fun _ => e5.trans (h4 c e1)) (by rw [e4, e6]; exact h3) (e7.trans h5) ?_ ?_
    · intro hw
      rcases e8 with ⟨f1, f2⟩ | ⟨f1, _⟩
      · rw [f1]; exact h6 (f2 ▸ hw)
      · exact absurd hw f1
    · rcases e8 with ⟨f1, f2⟩ | ⟨_, f1⟩
      · rw [f1]; exact h7
      · rw [f1]
        split at h7
        · exact h7
        · exact Nat.le_succ_of_le h7
  cases ht
  case start c job hp =>
    obtain ⟨g1, g2⟩ := hok
    have hm : (m = c ∧ (s.calls m).pc = .absent) ∨ (c = m + 1 ∧ ∃ o, (s.calls m).pc = .done o) := by
      rcases Nat.lt_trichotomy c m with hlt | rfl | hgt
      · obtain ⟨o, ho⟩ := h1 c hlt; rw [hp] at ho; cases ho
      · exact .inl ⟨rfl, hp⟩
      · refine .inr ⟨Classical.byContradiction fun hne => ?_, g1 m hgt⟩
        obtain ⟨o, ho⟩ := g1 (m + 1) (by omega)
        rw [h2 (m + 1) (by omega)] at ho; cases ho
    have hc : s.count = c ∧ (s.werr = none → k = c) ∧ k ≤ c := by
      rcases hm with ⟨rfl, e⟩ | ⟨rfl, o, e⟩
      · simp only [e, CPc.numbered, CPc.begun] at h3 h6 h7; exact ⟨h3, h6, h7⟩
      · simp only [e, CPc.numbered, CPc.begun] at h3 h6 h7; exact ⟨h3, h6, h7⟩
    refine ⟨c, k, ?_, ?_, ?_, ?_, h5, ?_, ?_⟩
    · intro j hj; simp only [State.set]; rw [if_neg (by omega)]; exact g1 j hj
    · intro j hj; simp only [State.set]; rw [if_neg (by omega)]; exact g2 j (by omega)
    · simp only [State.set, if_true, CPc.numbered]; exact hc.1
    · intro j hj
      simp only [State.set] at hj ⊢
      split at hj
      · cases hj
      · rename_i hne; rw [if_neg hne]; exact h4 j hj
    · simp only [State.set, if_true, CPc.begun]; exact hc.2.1
    · simp only [State.set, if_true, CPc.begun]; exact hc.2.2
  case add c hp =>
    obtain rfl := only c (by simp [hp]) (by simp [hp])
    simp only [hp, CPc.numbered, CPc.begun] at h3 h6 h7
    exact move k _ _ (fun j => rfl) (fun _ => by show s.count + 1 = _; rw [h3]; rfl) (by show s.count + 1 = _; rw [h3]; rfl)
      h5 (fun he => h6 he) h7
  case encode c hp he =>
    obtain rfl := only c (by simp [hp]) (by simp [hp])
    simp only [hp, CPc.numbered, CPc.begun] at h3 h6 h7
    have hk : k = c := h6 he
    subst hk
    exact move (k + 1) _ _ (fun j => rfl) (fun _ => h4 _ (by rw [hp]; rfl)) h3
      (by show s.started ++ [k] = _; rw [h5, List.range_succ]) (fun _ => rfl) (Nat.le_refl _)
  all_goals first
    | exact keep _ (fun j => ⟨rfl, rfl⟩) rfl rfl rfl
    | (refine keep _ (fun j => ?_) rfl rfl rfl; simp only [State.set]; split
       · rename_i e; subst e; exact ⟨rfl, rfl⟩
       · exact ⟨rfl, rfl⟩)
    | skip
  case rlock c hp _ => exact adv c _ _ (by rw [hp]; rfl) (by simp [hp]) (fun j => rfl) rfl rfl rfl rfl (.inl ⟨by rw [hp]; rfl, rfl⟩)
  case insert c hp => exact adv c _ _ (by rw [hp]; rfl) (by simp [hp]) (fun j => rfl) rfl rfl rfl rfl (.inl ⟨by rw [hp]; rfl, rfl⟩)
  case runlock c hp => exact adv c _ _ (by rw [hp]; rfl) (by simp [hp]) (fun j => rfl) rfl rfl rfl rfl (.inl ⟨by rw [hp]; rfl, rfl⟩)
  case wlock c hp _ => exact adv c _ _ (by rw [hp]; rfl) (by simp [hp]) (fun j => rfl) rfl rfl rfl rfl (.inl ⟨by rw [hp]; rfl, rfl⟩)
  case encodeErr c e hp he =>
    exact adv c _ _ (by rw [hp]; rfl) (by simp [hp]) (fun j => rfl) rfl rfl rfl rfl (.inr ⟨by simp [State.set, he], rfl⟩)
  case written c hp => exact adv c _ _ (by rw [hp]; rfl) (by simp [hp]) (fun j => rfl) rfl rfl rfl rfl (.inl ⟨by rw [hp]; rfl, rfl⟩)
  case wunlock c hp => exact adv c _ _ (by rw [hp]; rfl) (by simp [hp]) (fun j => rfl) rfl rfl rfl rfl (.inl ⟨by rw [hp]; rfl, rfl⟩)
  case failed c e hp => exact adv c _ _ (by rw [hp]; rfl) (by simp [hp]) (fun j => rfl) rfl rfl rfl rfl (.inl ⟨by rw [hp]; rfl, rfl⟩)
  case recv c d hp _ => exact adv c _ _ (by rw [hp]; rfl) (by simp [hp]) (fun j => rfl) rfl rfl rfl rfl (.inl ⟨by rw [hp]; rfl, rfl⟩)
  case write c _ _ hp _ _ _ => exact adv c _ _ (by rw [hp]; rfl) (by simp [hp]) (fun j => rfl) rfl rfl rfl rfl (.inl ⟨by rw [hp]; rfl, rfl⟩)
  case writeErr c _ _ _ hp _ _ _ =>
    exact adv c _ _ (by rw [hp]; rfl) (by simp [hp]) (fun j => rfl) rfl rfl rfl rfl (.inr ⟨by simp [State.set], rfl⟩)

/-- The ids are 1, 2, 3 and so on, modulo 2^32. -/
theorem C70_ids {P : Params} {s : Conn.State} (h : Conn.Reach P OneByOne s) {c : Nat} (hc : (s.calls c).pc.numbered = true) :
    (s.calls c).id = Int32.ofNat (c + 1) := by
  obtain ⟨m, k, hl⟩ := line h
  rw [(h.ids.call c hc).1, hl.seq c hc]

theorem started_id {P : Params} {s : Conn.State} (h : Conn.Reach P OneByOne s) {c : Nat} (hc : c ∈ s.started) :
    (s.calls c).id = Int32.ofNat (c + 1) := by
  refine C70_ids h ?_
  cases hp : (s.calls c).pc
  all_goals first
    | rfl
    | exact absurd hc (h.wires.before c (by rw [hp]; rfl)).1

/-- On the wire are the requests of the calls in the order in which they were made, each with its id, each whole but the
last. -/
theorem C70_wire {P : Params} {s : Conn.State} (h : Conn.Reach P OneByOne s) :
    s.wire = [] ∨ ∃ k part, part <+: (s.calls k).job.frame (Int32.ofNat (k + 1)) ∧
      s.wire = ((List.range k).flatMap fun c => (s.calls c).job.frame (Int32.ofNat (c + 1))) ++ part := by
  obtain ⟨m, k, hl⟩ := line h
  have hw := h.wires
  have hid : ∀ c ∈ s.started, (s.calls c).frame = (s.calls c).job.frame (Int32.ofNat (c + 1)) :=
    fun c hc => by rw [CState.frame, started_id h hc]
  cases k with
  | zero => exact .inl (by rw [hw.wire, hl.started]; rfl)
  | succ k =>
    right
    have hs : s.started = List.range k ++ [k] := by rw [hl.started, List.range_succ]
    refine ⟨k, (s.calls k).sent, ?_, ?_⟩
    · rw [← hid k (by rw [hs]; simp)]; exact hw.sent k
    · rw [hw.wire]
      conv => lhs; rw [hs]
      rw [List.flatMap_append, List.flatMap_cons, List.flatMap_nil, List.append_nil]
      congr 1
      refine flatMap_congr' fun c hc => ?_
      rw [hw.whole c (by rw [hs]; simpa using hc), hid c (by rw [hs]; simp at hc ⊢; omega)]

/-- When the last call made waits for its reply, or has returned by it, the wire carries the requests of all calls made
and nothing else. -/
theorem C70_asked {P : Params} {s : Conn.State} (h : Conn.Reach P OneByOne s) {c : Nat}
    (hp : (s.calls c).pc = .recv ∨ ∃ d, (s.calls c).pc = .done (.reply d)) (hlast : ∀ j, c < j → (s.calls j).pc = .absent) :
    s.wire = (List.range (c + 1)).flatMap fun c => (s.calls c).job.frame (Int32.ofNat (c + 1)) := by
  obtain ⟨m, k, hl⟩ := line h
  have hw := h.wires
  have hf := hw.flushed c (by rcases hp with hp | ⟨d, hp⟩ <;> rw [hp] <;> rfl)
  have hm : m ≤ c + 1 := by
    refine Classical.byContradiction fun hn => ?_
    obtain ⟨o, ho⟩ := hl.before (c + 1) (by omega)
    rw [hlast (c + 1) (by omega)] at ho
    cases ho
  have hk : k ≤ c + 1 := by
    refine Classical.byContradiction fun hn => ?_
    have := hl.some
    have hmem : c + 1 ∈ s.started := by rw [hl.started]; simp; omega
    exact absurd hmem (hw.before (c + 1) (by rw [hlast (c + 1) (by omega)]; rfl)).1
  have hck : c < k := by have := hf.1; rw [hl.started] at this; simpa using this
  obtain rfl : k = c + 1 := by omega
  have hs : s.started = List.range c ++ [c] := by rw [hl.started, List.range_succ]
  rw [hw.wire]
  conv => lhs; rw [hl.started]
  refine flatMap_congr' fun j hj => ?_
  have hj' : j ∈ s.started := by rw [hl.started]; exact hj
  rw [← started_id h hj']
  rcases Nat.lt_or_ge j c with hlt | hge
  · exact hw.whole j (by rw [hs]; simpa using hlt)
  · obtain rfl : j = c := by simp at hj; omega
    exact hf.2

/-- What has become of a request, for the model of client.go. -/
def replyOf : Outcome → Reply
  | .flushErr e => .lost ⟨e.code⟩
  | .reply d => .frame ((d.raw.take d.length.toNat).drop 4) (d.raw.drop d.length.toNat)

/-- What a method returns when `Do` has returned. -/
def endOf {α : Type} (call : Call α) : Outcome → Out α
  | .flushErr e => .err (.net ⟨e.code⟩)
  | .reply d =>
    match call.decode d with
    | .ok a _ => .ok a
    | .err e _ => .err (.decode e)
    | .panic => .panic

theorem decoder_eq {n : Nat} {frames : List (List Byte)} {d : Decoder} {id : Int32} (h : ReplyTo n frames d id) :
    (⟨Wire.int32 id ++ (d.raw.take d.length.toNat).drop 4 ++ d.raw.drop d.length.toNat,
      ((Wire.int32 id ++ (d.raw.take d.length.toNat).drop 4).length : Int), 4⟩ : Decoder) = d := by
  obtain ⟨p, _, h1, h2, h3, h4, h5⟩ := h
  obtain ⟨raw, length, offset⟩ := d
  obtain ⟨u, rfl⟩ := h1
  obtain ⟨v, rfl⟩ := h2
  dsimp only at h3 h4 ⊢
  subst h3 h4
  have h6 : (Wire.int32 id).length = 4 := by rw [wire_int32]; rfl
  simp only [Int.toNat_natCast, List.take_left', List.drop_left']
  rw [List.drop_left' h6]

theorem doCall_reply {α : Type} {n : Nat} {frames : List (List Byte)} {c : Nat} {d : Decoder}
    (h : ReplyTo n frames d (Int32.ofNat (c + 1))) (call : Call α) (conn : Nat) (env : Env) (tr : Trace) (hn : tr.sent conn = c)
    (he : env.reply tr conn (bytesOf (call.encode (Int32.ofNat (c + 1)))) = replyOf (.reply d)) :
    doCall conn call env tr =
      (endOf call (.reply d), tr ++ [.request conn (bytesOf (call.encode (Int32.ofNat (c + 1)))) (replyOf (.reply d))]) := by
  unfold doCall
  dsimp only
  rw [hn, he]
  simp only [replyOf, decoder_eq h, endOf]
  cases call.decode d <;> rfl

/-- A call that has returned has done what the model of client.go says: for the outcome there is a reply of the network,
and with this reply `doCall` writes the bytes of the call and ends as the call has ended. -/
theorem C70_model {α : Type} {P : Params} {s : Conn.State} (h : Conn.Reach P OneByOne s) {c : Nat} {o : Outcome}
    (hd : (s.calls c).pc = .done o) (call : Call α) (hj : ∀ id, (s.calls c).job.frame id = bytesOf (call.encode id))
    (conn : Nat) (env : Env) (tr : Trace) (hn : tr.sent conn = c)
    (he : env.reply tr conn ((s.calls c).job.frame (s.calls c).id) = replyOf o) :
    doCall conn call env tr =
      (endOf call o, tr ++ [.request conn ((s.calls c).job.frame (s.calls c).id) (replyOf o)]) := by
  have hid := C70_ids h (c := c) (by rw [hd]; rfl)
  rw [hj, hid] at he ⊢
  cases o with
  | flushErr e =>
    unfold doCall
    dsimp only
    rw [hn, he]
    rfl
  | reply d => exact doCall_reply (hid ▸ h.frames.done c d hd) call conn env tr hn he

/-- And so it is when decoding the reply ends the program. -/
theorem C70_panics {α : Type} {P : Params} {s : Conn.State} (h : Conn.Reach P OneByOne s) {c : Nat} {d : Decoder}
    (hm : s.mpc = .decode d c) (call : Call α) (hj : ∀ id, (s.calls c).job.frame id = bytesOf (call.encode id))
    (hp : call.decode d = .panic) (conn : Nat) (env : Env) (tr : Trace) (hn : tr.sent conn = c)
    (he : env.reply tr conn ((s.calls c).job.frame (s.calls c).id) = replyOf (.reply d)) :
    doCall conn call env tr =
      (.panic, tr ++ [.request conn ((s.calls c).job.frame (s.calls c).id) (replyOf (.reply d))]) := by
  have hreg := (h.tokens.taken c (by rw [hm]; rfl)).1
  have hnum : (s.calls c).pc.numbered = true := by
    cases e : (s.calls c).pc <;> rw [e] at hreg <;> first | rfl | cases hreg
  have hid := C70_ids h hnum
  rw [hj, hid] at he ⊢
  rw [doCall_reply (hid ▸ h.frames.taken c d (by rw [hm]; rfl)) call conn env tr hn he, endOf, hp]

/-! ### Example -/

/-- A call that is answered. -/
def askAnswer (c : Nat) (id : Byte) : List Act :=
  callDo c ++ deliver [0, 0, 0, 4, 0, 0, 0, id] ++ fetch ++ List.replicate 6 .message ++ [.call c]

theorem oneByOne_run {s s' : Conn.State} {c : Nat} {as : List Act} (h : Conn.Reach small OneByOne s) (hok : OneByOne s (.start c sampleJob))
    (hr : Conn.run small (.start c sampleJob :: as) s = some s') (has : as.all fun | .start .. => false | _ => true) :
    Conn.Reach small OneByOne s' := by
  simp only [Conn.run] at hr
  obtain ⟨s1, h1, h2⟩ := Option.bind_eq_some_iff.1 hr
  refine (h.step _ hok h1).run as (fun a ha s => ?_) h2
  have := List.all_eq_true.1 has a ha
  cases a <;> first | trivial | cases this

/-- Two calls, one after the other. -/
example : ∃ s d, Conn.Reach small OneByOne s ∧ (s.calls 1).pc = .done (.reply d) ∧ s.wire = [0, 0, 0, 1, 0, 0, 0, 2] ∧
    (s.calls 1).id = 2 := by
  have e1 : ((Conn.run small (askAnswer 0 1) (Conn.init small)).bind fun s1 =>
      (Conn.run small (askAnswer 1 2) s1).map fun s2 => ((s1.calls 0).pc matches .done _, (s1.calls 1).pc matches .absent,
        (s2.calls 1).pc matches .done (.reply _), s2.wire, (s2.calls 1).id)) =
      some (true, true, true, [0, 0, 0, 1, 0, 0, 0, 2], 2) := by decide +kernel
  obtain ⟨s1, r1, e2⟩ := Option.bind_eq_some_iff.1 e1
  obtain ⟨s2, r2, e3⟩ := Option.map_eq_some_iff.1 e2
  simp only [Prod.mk.injEq] at e3
  obtain ⟨f1, f2, f3, f4, f5⟩ := e3
  have h1 : Conn.Reach small OneByOne s1 := oneByOne_run .init ⟨by omega, fun _ _ => rfl⟩ r1 (by decide)
  have h2 : Conn.Reach small OneByOne s2 := by
    refine oneByOne_run h1 ⟨?_, ?_⟩ r2 (by decide)
    · intro j hj
      obtain rfl : j = 0 := by omega
      split at f1
      · rename_i o e; exact ⟨o, e⟩
      · cases f1
    · intro j hj
      obtain ⟨m, k, hl⟩ := line h1
      have e : (s1.calls 1).pc = .absent := by split at f2 <;> first | assumption | cases f2
      rcases Nat.lt_or_ge m j with hlt | hge
      · exact hl.after j hlt
      · obtain rfl : m = 1 := Classical.byContradiction fun hne => by
          obtain ⟨o, ho⟩ := hl.before 1 (by omega)
          rw [e] at ho; cases ho
        obtain rfl : j = 1 := by omega
        exact e
  split at f3
  · rename_i d e; exact ⟨s2, d, h2, e, f4, f5⟩
  · cases f3

end Kafka.Props
