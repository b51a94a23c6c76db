import Verif.Props.Flow
import Verif.Conn.Realise
import Verif.Conn.Dispatch
/-!
Property C38 again: which streams of bytes crash the program.
-/
namespace Kafka.Props

open Conn

/-- In a stream of frames, one is announced that is longer than `n` bytes, and more than `n` bytes come after its
length (which is then more than enough to fill a buffer of `n` bytes). -/
def oversize (n : Nat) (bs : List Byte) : Bool :=
  match bs with
  | a :: b :: c :: d :: rest =>
    let len := Wire.readInt32 a b c d
    if len > n then decide (rest.length > n)
    else if len > rest.length then false
    else oversize n (rest.drop len.toNat)
  | _ => false
termination_by bs.length
decreasing_by simp; omega

theorem oversize_frame (n : Nat) (v : Int32) (f t : List Byte) (h : f.length = v.toInt.toNat) (hn : v.toInt ≤ n) :
    oversize n (Wire.int32 v ++ (f ++ t)) = oversize n t := by
  obtain ⟨a, b, c, d, h1, h2⟩ := readInt32_int32 v
  rw [h1]
  show oversize n (a :: b :: c :: d :: (f ++ t)) = _
  rw [oversize, h2, if_neg (by omega), if_neg (by rw [List.length_append]; omega), ← h, List.drop_left]

theorem oversize_long (n : Nat) (v : Int32) (t : List Byte) (hn : (n : Int) < v.toInt) (ht : n < t.length) :
    oversize n (Wire.int32 v ++ t) = true := by
  obtain ⟨a, b, c, d, h1, h2⟩ := readInt32_int32 v
  rw [h1]
  show oversize n (a :: b :: c :: d :: t) = _
  rw [oversize, h2, if_pos hn, decide_eq_true ht]

theorem Parsed.oversize {n : Nat} {fs : List (List Byte)} {bs : List Byte} (h : Parsed fs bs) (hn : ∀ f ∈ fs, f.length ≤ n) :
    ∀ t, oversize n (bs ++ t) = oversize n t := by
  induction h with
  | nil => intro t; rfl
  | snoc v f _ hf ih =>
    intro t
    rw [List.append_assoc, List.append_assoc, ih fun f hf => hn f (List.mem_append_left _ hf),
      oversize_frame n v f t hf]
    have := hn f (List.mem_append_right _ List.mem_cons_self)
    omega

/-- `messageLoop` does not get past a frame that is longer than its buffer. -/
theorem frames_le {P : Params} {ok : Conn.State → Act → Prop} {s : Conn.State} (h : Conn.Reach P ok s) :
    ∀ f ∈ s.frames, f.length ≤ P.buf := by
  refine h.inv (I := fun s => ∀ f ∈ s.frames, f.length ≤ P.buf) (by simp [Conn.init]) ?_
  intro s s' a hr hi hok ht
  clear hok
  have hb := hr.frames.buf
  have key : ∀ size : Int, size ≤ s.buf.length → ∀ f ∈ s.frames ++ [s.ring.rdst.take size.toNat], f.length ≤ P.buf := by
    intro size hs f hf
    rcases List.mem_append.1 hf with hf | hf
    · exact hi f hf
    · rw [List.mem_singleton.1 hf, List.length_take]
      omega
  cases ht
  case parse size _ _ _ _ hs _ => exact key size hs
  case skip size _ _ _ _ hs _ => exact key size hs
  case parseCrash size _ _ hs _ => exact key size hs
  all_goals exact hi

/-- In the schedules of C25, what crashes the program is in the bytes received: a frame longer than the buffer is
announced and more has come of it than the buffer holds, or the decode function of a call panics on a frame that
was received with the id of the call. -/
theorem C38_received_partial {P : Params} (hN : 2 ≤ P.ring) (hP : 4 ≤ P.buf) {s : Conn.State}
    (h : Conn.Reach P (PacedConn P) s) (hc : s.crashed = true) :
    oversize P.buf s.received = true ∨
    ∃ d c, (s.calls c).job.panics d = true ∧ ReplyTo P.buf (splitStream s.received) d (s.calls c).id := by
  have hpre := C37_partial hN hP s h
  have hlen : ∀ v : Int32, (Wire.int32 v).length = 4 := fun v => by rw [wire_int32]; rfl
  have hpref : ∀ {s : Conn.State}, Conn.Reach P (PacedConn P) s → s.ring.taken <+: s.received := by
    intro s h
    rw [← (h.stream hP).given]
    exact C25_partial hN s.ring (pacedRing h)
  have key : ∀ {s : Conn.State} {bs x : List Byte} {v : Int32}, Conn.Reach P (PacedConn P) s → Parsed s.frames bs →
      (P.buf : Int) < v.toInt → s.ring.taken = bs ++ Wire.int32 v ++ x → P.buf < x.length →
      oversize P.buf s.received = true := by
    intro s bs x v h h1 h2 h3 h4
    obtain ⟨t, ht⟩ := hpref h
    rw [← ht, h3, List.append_assoc, List.append_assoc, Parsed.oversize h1 (frames_le h)]
    exact oversize_long _ _ _ h2 (by rw [List.length_append]; omega)
  cases h with
  | init => cases hc
  | @step s0 _ a hr hok hst =>
    have hc0 : s0.crashed = false := by
      cases hc0 : s0.crashed with
      | false => rfl
      | true => simp [Conn.step, hc0] at hst
    have ht := step_trans hst
    clear hst
    cases ht
    case headCrash hm hi hn =>
      have hb := hr.frames.head hm
      obtain ⟨v, _, e⟩ := headSize_eq (buf := s0.ring.rdst) (by omega)
      rw [hn] at e; cases e
    case bodyCrash size hm hi hlt =>
      have hb := hr.frames.buf
      have hr' := hr.frames.body size hm
      rw [if_pos (by omega)] at hr'
      obtain ⟨bs, v, h1, h2, _, h4⟩ := (hr.stream hP).body size hm
      rw [if_pos hi] at h4
      have := key hr h1 (by omega) h4 (by rw [List.length_take]; omega)
      exact .inl this
    case full hf =>
      have hring := pacedRing hr
      have hfifo := hring.fifo hN (fun _ _ h => h)
      have hpos := hring.pos (by omega)
      have hcalls := hring.calls
      have hb := hr.frames.buf
      obtain ⟨size, hm, hs⟩ := hr.full hP hf
      obtain ⟨bs, v, h1, h2, h3, h4⟩ := (hr.stream hP).body size hm
      simp only [Conn.full, Bool.and_eq_true, decide_eq_true_eq] at hf
      have hdata : s0.ring.got.length < s0.ring.pub := by
        cases hres : s0.ring.rres with
        | true => exact hok hres hf.1
        | false => exact Nat.lt_of_lt_of_le (hfifo.rget hf.1 hres) hpos.rpub_le
      have hgl := congrArg List.length hcalls.taken
      have hpl := congrArg List.length hcalls.given
      have hlt := hcalls.rbody (by rw [hf.1]; rfl)
      have hrl := hcalls.rlen
      have hpub := hpos.pub_le
      rw [(hr.stream hP).given, List.length_append] at hpl
      rw [if_neg (by rw [hf.1]; simp), List.append_nil] at h4
      rw [List.length_append, List.length_take, h4, List.length_append, hlen, hf.1] at hgl
      simp only [Ring.RPc.read] at hgl
      obtain ⟨t, ht⟩ := hpref hr
      have htl := congrArg List.length ht
      rw [h4, List.length_append, List.length_append, hlen] at htl
      refine .inl ?_
      show oversize P.buf s0.received = true
      rw [← ht, h4, List.append_assoc, Parsed.oversize h1 (frames_le hr)]
      exact oversize_long _ _ _ (by omega) (by omega)
    case parseCrash size hm hi hle hd =>
      have hz := hr.frames.size size hm
      have hb := hr.frames.buf
      have hb' := hr.frames.length hm hle
      rcases header_start hz.1 hz.2 (raw := s0.ring.rdst) (by omega) with ⟨_, h2⟩ | ⟨h1, resp', h2, h3⟩
      · rw [hd] at h2; cases h2
      · rw [hd] at h3; cases h3
    case decodeCrash d c hm hp =>
      obtain ⟨p, h1, h2⟩ := hr.frames.taken c d (by rw [hm]; rfl)
      exact .inr ⟨d, c, hp, p, hpre.subset h1, h2⟩
    all_goals (simp [State.set, hc0] at hc)

/-- With a buffer of four bytes: five bytes of a frame of five are too many, four are not yet; frames before, even one
of negative length, do not matter. -/
example : oversize 4 (Wire.int32 5 ++ [1, 2, 3, 4, 5]) = true ∧ oversize 4 (Wire.int32 5 ++ [1, 2, 3, 4]) = false ∧
    oversize 4 (Wire.int32 2 ++ [1, 2] ++ Wire.int32 (-1) ++ Wire.int32 5 ++ [1, 2, 3, 4, 5]) = true := by
  decide +kernel

theorem Calm.oversize {P : Params} (hP : 4 ≤ P.buf) (hN : P.buf + 7 ≤ P.ring) (bs : List Byte) : ∀ {s : Conn.State},
    Conn.Reach P Conn.Any s → Conn.Calm P s → (∀ c d, (s.calls c).job.panics d = false) → oversize P.buf bs = true →
    ∃ s', Leads P s s' ∧ s'.crashed = true ∧ s'.received <+: s.received ++ bs ∧
      ∀ c d, (s'.calls c).job.panics d = false := by
  intro s hr hs hj ho
  match bs, ho with
  | a :: b :: c :: d :: rest, ho =>
    rw [Props.oversize] at ho
    obtain ⟨v, h1, h2⟩ : ∃ v : Int32, [a, b, c, d] = Wire.int32 v ∧ Wire.readInt32 a b c d = v.toInt := by
      obtain ⟨v, h1, _⟩ := headSize_eq (buf := [a, b, c, d]) (Nat.le_refl 4)
      have h1 : [a, b, c, d] = Wire.int32 v := h1
      obtain ⟨a', b', c', d', h3, h4⟩ := readInt32_int32 v
      rw [h3] at h1
      injection h1 with e1 h1; injection h1 with e2 h1; injection h1 with e3 h1; injection h1 with e4 h1
      subst e1 e2 e3 e4
      exact ⟨v, h3.symm, h4⟩
    have hbs : a :: b :: c :: d :: rest = Wire.int32 v ++ rest := by rw [← h1]; rfl
    rw [hbs]
    split at ho
    · rename_i hlong
      have hrest := of_decide_eq_true ho
      obtain ⟨s', l1, l2, l3, _, l5⟩ := hs.crash hP hN hr (size := v) (by omega) (data := rest.take (P.buf + 1))
        (by rw [List.length_take]; omega)
      refine ⟨s', l1, l2, ?_, fun c d => by rw [l3]; exact hj c d⟩
      rw [l5, List.append_assoc]
      exact List.prefix_append_right_inj _ |>.2 (List.prefix_append_right_inj _ |>.2 (List.take_prefix ..))
    · split at ho
      · cases ho
      · rename_i h3 h4
        obtain ⟨s1, l1, l2, l3, _, l5⟩ := hs.frame (by omega) hP hr (v := v) (f := rest.take v.toInt.toNat)
          (by rw [List.length_take]; omega) (by rw [List.length_take]; omega) (by rw [List.length_take]; omega) hj
        rw [h2] at ho
        obtain ⟨s', k1, k2, k3, k4⟩ := Calm.oversize hP hN (rest.drop v.toInt.toNat) (l1.reach hr) l2
          (fun c d => by rw [l5]; exact hj c d) ho
        refine ⟨s', l1.trans k1, k2, ?_, k4⟩
        rw [l3] at k3
        simpa using k3
  | [], ho | [_], ho | [_, _], ho | [_, _, _], ho => rw [Props.oversize] at ho <;> first | cases ho | simp
termination_by bs.length
decreasing_by subst_vars; simp; omega

/-- And every such stream can: whatever the frames before, a program to which these bytes come may crash, without
having called anything. -/
theorem C38_stream_fails {P : Params} (hP : 4 ≤ P.buf) (hN : P.buf + 7 ≤ P.ring) (bs : List Byte)
    (h : oversize P.buf bs = true) :
    ∃ s, Conn.Reach P Conn.Any s ∧ s.crashed = true ∧ s.received <+: bs ∧ ∀ c d, (s.calls c).job.panics d = false := by
  obtain ⟨s, h1, h2, h3, h4⟩ := Calm.oversize hP hN bs .init (Conn.Calm.init (by omega)) (fun _ _ => rfl) h
  exact ⟨s, h1.reach .init, h2, h3, h4⟩

end Kafka.Props
