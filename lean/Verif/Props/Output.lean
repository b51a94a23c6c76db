import Verif.Conn.Print
import Verif.Props.Close
/-!
Property C79: what a connection prints.
-/
namespace Kafka.Props

open Conn (Params Act Prints Line)

/-- The full claim: a connection prints nothing. -/
def C79_statement (P : Params) (ok : Conn.State → Act → Prop) : Prop :=
  ∀ (s : Conn.State) (out : List Line), Prints P ok s out → out = []

/-- The frames that are too short for a correlation id. -/
def shortFrames (s : Conn.State) : List (List Byte) := s.frames.filter fun f => f.length < 4

/-- What `readLoop` has printed. -/
def farewell (s : Conn.State) : List Line := if s.lpc = .exited then [.readErr] else []

theorem Prints.message {P : Params} {s s' : Conn.State} (h : Conn.Frames P s) (ht : Conn.Trans P s .message s') :
    s'.lpc = s.lpc ∧ ∃ fs, s'.frames = s.frames ++ fs ∧
      Conn.prints .message s = List.replicate (fs.filter fun f => f.length < 4).length (.headerErr .shortBuffer) := by
  have key : ∀ size, s.mpc = .inBody size → size ≤ s.buf.length →
      (size < 4 ∧ Msg.ResponseHeader.decode 1 {} { raw := s.ring.rdst, length := size, offset := 0 } =
          .err .shortBuffer { raw := s.ring.rdst, length := size, offset := 0 } ∧
        (s.ring.rdst.take size.toNat).length < 4) ∨
      (∃ resp d, Msg.ResponseHeader.decode 1 {} { raw := s.ring.rdst, length := size, offset := 0 } = .ok resp d ∧
        ¬ (s.ring.rdst.take size.toNat).length < 4) := by
    intro size hm hs
    have hb := h.buf
    have hr := h.body size hm
    rw [if_neg (by omega)] at hr
    rcases Conn.header_start (h.size size hm).1 (h.size size hm).2 (raw := s.ring.rdst) (by omega) with ⟨h1, h2⟩ | ⟨h1, resp, _, h2⟩
    · exact .inl ⟨h1, h2, by rw [List.length_take]; omega⟩
    · exact .inr ⟨_, _, h2, by rw [List.length_take]; omega⟩
  cases ht
  case parse size resp d hm hi hs hd =>
    rcases key size hm hs with ⟨_, h2, _⟩ | ⟨_, _, h2, h3⟩
    · rw [h2] at hd; cases hd
    · refine ⟨rfl, _, rfl, ?_⟩
      rw [Conn.prints, hm]
      dsimp only
      rw [h2, List.filter_cons_of_neg (by simpa using h3)]
      rfl
  case skip size e d hm hi hs hd =>
    rcases key size hm hs with ⟨_, h2, h3⟩ | ⟨_, _, h2, _⟩
    · refine ⟨rfl, _, rfl, ?_⟩
      rw [Conn.prints, hm]
      dsimp only
      rw [h2, List.filter_cons_of_pos (by simpa using h3)]
      dsimp only
      rw [if_neg (by omega)]
      rfl
    · rw [h2] at hd; cases hd
  case parseCrash size hm hi hs hd =>
    rcases key size hm hs with ⟨_, h2, h3⟩ | ⟨_, _, h2, _⟩ <;> (rw [h2] at hd; cases hd)
  case bodyCrash size hm hi hs =>
    refine ⟨rfl, [], (List.append_nil _).symm, ?_⟩
    rw [Conn.prints, hm]
    dsimp only
    split
    · rw [if_pos hs]; rfl
    · rfl
  all_goals exact ⟨rfl, [], (List.append_nil _).symm, by rw [Conn.prints]; simp [*]⟩

/-- Every line printed is the error with which reading from the network ended, or `short buffer` for a frame
that is too short; and all these are printed. -/
theorem C79_exact {P : Params} {ok : Conn.State → Act → Prop} {s : Conn.State} {out : List Line} (h : Prints P ok s out) :
    out.Perm (farewell s ++ List.replicate (shortFrames s).length (.headerErr .shortBuffer)) := by
  induction h with
  | init => exact .nil
  | @step s s' out a hp hok hs ih =>
    have ht := Conn.step_trans hs
    have hf := hp.reach.frames
    by_cases ha : a = .message
    · subst ha
      obtain ⟨h1, fs, h2, h3⟩ := Prints.message hf ht
      rw [h3, farewell, h1, shortFrames, h2, List.filter_append, List.length_append, ← List.replicate_append_replicate, ← List.append_assoc]
      exact ih.append_right _
    · cases ht
      case readErr data hl _ _ =>
        have : farewell s = [] := by rw [farewell, hl]; rfl
        rw [this] at ih
        exact (List.perm_append_comm).trans (ih.cons _)
      case read data r hl _ _ _ =>
        have : farewell s = [] := by rw [farewell, hl]; rfl
        rw [this] at ih
        exact (List.append_nil out).symm ▸ ih
      case readNext hl _ =>
        have : farewell s = [] := by rw [farewell, hl]; rfl
        rw [this] at ih
        exact (List.append_nil out).symm ▸ ih
      all_goals first
        | exact absurd rfl ha
        | exact (List.append_nil out).symm ▸ ih

/-- True as long as reading from the network has not ended and all frames have a correlation id. -/
theorem C79_partial {P : Params} {ok : Conn.State → Act → Prop} {s : Conn.State} {out : List Line} (h : Prints P ok s out)
    (hl : s.lpc ≠ .exited) (hf : ∀ f ∈ s.frames, 4 ≤ f.length) : out = [] := by
  have h1 := C79_exact h
  have h2 : shortFrames s = [] := by
    rw [shortFrames, List.filter_eq_nil_iff]
    intro f hm
    have := hf f hm
    simp only [decide_eq_true_eq]
    omega
  rw [farewell, if_neg hl, h2] at h1
  exact h1.eq_nil

/-- A frame of no bytes is received and skipped. -/
def emptyFrame : List Act :=
  [.read [0, 0, 0, 0]] ++ List.replicate 8 (.ring .w) ++ [.readNext, .message] ++ List.replicate 8 (.ring .r) ++ [.message] ++
    List.replicate 3 (.ring .r) ++ [.message]

/-- It is reported, although nothing has gone wrong with the connection. -/
example : ∃ s, Conn.run small emptyFrame (Conn.init small) = some s ∧ s.mpc = .top ∧ farewell s = [] ∧ (shortFrames s).length = 1 :=
  ⟨_, rfl, rfl, rfl, rfl⟩

/-- A reply that nobody asked for, received and dropped without a word: it meets the hypotheses of `C79_partial`. -/
def strayFrame : List Act :=
  [.read [0, 0, 0, 4, 0, 0, 0, 9]] ++ List.replicate 12 (.ring .w) ++ [.readNext, .message] ++ List.replicate 8 (.ring .r) ++
    [.message] ++ List.replicate 8 (.ring .r) ++ List.replicate 5 .message

example : ∃ s, Conn.run small strayFrame (Conn.init small) = some s ∧ s.mpc = .top ∧ s.lpc ≠ .exited ∧
    s.frames = [[0, 0, 0, 9]] :=
  ⟨_, rfl, rfl, by decide, rfl⟩

/-- When `Close` has returned, an error has been printed. -/
theorem C79_closed {P : Params} {s : Conn.State} {out : List Line} (h : Prints P Conn.Any s out) {k : Nat}
    (hk : s.closers k = .done) : Line.readErr ∈ out := by
  have h1 := (C53_ended h.reach hk).2.1
  rw [(C79_exact h).mem_iff, farewell, if_pos h1]
  exact List.mem_cons_self ..

/-- The steps of one call of `Close` on a connection on which nothing else happens. -/
def closeIdle : List Act :=
  [.close 0, .close 0, .close 0, .close 0, .message, .readErr [], .close 0, .close 0]

theorem Prints.run {P : Params} {as : List Act} {s s' : Conn.State} {out : List Line} (h : Prints P Conn.Any s out)
    (hr : Conn.run P as s = some s') : ∃ out', Prints P Conn.Any s' (out ++ out') := by
  induction as generalizing s out with
  | nil => cases hr; exact ⟨[], by rwa [List.append_nil]⟩
  | cons a as ih =>
    rw [Conn.run] at hr
    obtain ⟨x, hx, hr⟩ := Option.bind_eq_some_iff.1 hr
    obtain ⟨out', h'⟩ := ih (h.step a trivial hx) hr
    exact ⟨_, by rwa [List.append_assoc] at h'⟩

/-- False of the code, for all sizes: a program that connects, closes the connection and does nothing else finds
an error in its output. -/
theorem C79_close_fails (P : Params) : ∃ s, Conn.run P closeIdle (Conn.init P) = some s ∧ s.closers 0 = .done ∧
    s.received = [] ∧ s.wire = [] ∧ Prints P Conn.Any s [.readErr] := by
  refine ⟨_, rfl, rfl, rfl, rfl, ?_⟩
  have h : ∀ s, Conn.run P closeIdle (Conn.init P) = some s → s.frames = [] → s.lpc = .exited → Prints P Conn.Any s [.readErr] := by
    intro s hs hf hl
    obtain ⟨out, h⟩ := Prints.run (.init (P := P)) hs
    have := C79_exact h
    rw [farewell, if_pos hl, shortFrames, hf] at this
    rw [List.nil_append] at h this
    rwa [this.eq_singleton] at h
  exact h _ rfl rfl rfl

/-- So the full claim is false. -/
theorem C79_fails (P : Params) : ¬C79_statement P Conn.Any := fun h => by
  obtain ⟨s, _, _, _, _, hp⟩ := C79_close_fails P
  exact absurd (h s _ hp) (by simp)

end Kafka.Props
