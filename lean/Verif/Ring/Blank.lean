import Verif.Ring.Hist
import Verif.Ring.Calls
/-!
The ring buffer does not look at the bytes: what happens depends on how many are passed only.
-/
set_option linter.unusedSimpArgs false

namespace Kafka.Ring

/-- All bytes replaced by zero. -/
def zeros (l : List Byte) : List Byte := l.map fun _ => 0

/-- An action without the bytes passed. -/
def Action.blank : Action → Action
  | .callW data n => .callW (zeros data) n
  | .callR dst n => .callR (zeros dst) n
  | a => a

/-- A state without the bytes in it. -/
def State.blank (s : State) : State :=
  { s with mem := fun _ => 0, wdata := zeros s.wdata, rdst := zeros s.rdst, put := zeros s.put, got := zeros s.got,
           given := zeros s.given, taken := zeros s.taken, rorig := zeros s.rorig }

theorem zeros_length (l : List Byte) : (zeros l).length = l.length := List.length_map _

theorem zeros_append (l m : List Byte) : zeros (l ++ m) = zeros l ++ zeros m := List.map_append

theorem zeros_take (n : Nat) (l : List Byte) : (zeros l).take n = zeros (l.take n) := List.map_take.symm

theorem zeros_getD (l : List Byte) (n : Nat) : (zeros l)[n]?.getD 0#8 = 0#8 := by
  simp only [zeros, List.getElem?_map]
  cases l[n]? <;> rfl

theorem zeros_set (l : List Byte) (n : Nat) (b : Byte) : (zeros l).set n 0 = zeros (l.set n b) := List.map_set.symm

theorem blank_wLoop {s s' : State} (h : s' = s.blank) : wLoop s' = (wLoop s).blank := by
  subst h
  by_cases h1 : s.wi < s.wn <;> simp [wLoop, State.blank, h1]

theorem blank_rLoop {s s' : State} (h : s' = s.blank) : rLoop s' = (rLoop s).blank := by
  subst h
  by_cases h1 : s.ri < s.rn <;> by_cases h2 : s.rpos = s.rnext <;> simp [rLoop, State.blank, h1, h2]

theorem blank_wReturn (s : State) : wReturn s.blank = (wReturn s).blank := rfl

theorem blank_rReturn (s : State) : rReturn s.blank = (rReturn s).blank := by
  simp [rReturn, State.blank, zeros_take, zeros_append]

theorem blank_wStep (N : Nat) (s : State) : wStep N s.blank = (wStep N s).map State.blank := by
  cases hpc : s.wpc <;> simp only [wStep, show s.blank.wpc = s.wpc from rfl, hpc]
  case idle => rfl
  case load1 => rfl
  case load2 => exact congrArg some (blank_wLoop rfl)
  case put =>
    by_cases h : incr N (incr N s.wpos) = s.wstart
    · simp [State.blank, h, zeros_getD, zeros_append]
      rfl
    · simp only [show s.blank.wpos = s.wpos from rfl, show s.blank.wstart = s.wstart from rfl, h, if_false, Option.map_some]
      refine congrArg some (blank_wLoop ?_)
      simp [State.blank, zeros_getD, zeros_append]
      rfl
  case store => simp [State.blank, zeros_length]
  case relCas => by_cases h : s.rset <;> simp [State.blank, h, wReleased]
  case relRecv => by_cases h : s.closed <;> simp [State.blank, h, wReleased]
  case reload =>
    by_cases h : incr N s.wpos = s.start
    · simp [State.blank, h]
    · simp only [show s.blank.wpos = s.wpos from rfl, show s.blank.start = s.start from rfl, h, if_false, Option.map_some]
      exact congrArg some (blank_wLoop rfl)
  case waitCas =>
    by_cases h : s.wset
    · simp only [show s.blank.wset = s.wset from rfl, h, if_true, Option.map_some, wWaited]
      exact congrArg some (blank_wLoop rfl)
    · simp [State.blank, h]
  case waitSend =>
    by_cases h : s.closed
    · simp only [show s.blank.closed = s.closed from rfl, h, if_true, Option.map_some, wWaited]
      exact congrArg some (blank_wLoop rfl)
    · simp [State.blank, h]
  case fstore => by_cases h : s.wwrote + 1 < s.wn <;> simp [State.blank, h, zeros_length, wReturn]
  case frelCas => by_cases h : s.rset <;> simp [State.blank, h, wReturn]
  case frelRecv => by_cases h : s.closed <;> simp [State.blank, h, wReturn]

theorem blank_rStep (N : Nat) (s : State) : rStep N s.blank = (rStep N s).map State.blank := by
  cases hpc : s.rpc <;> simp only [rStep, show s.blank.rpc = s.rpc from rfl, hpc]
  case idle => rfl
  case load1 => rfl
  case load2 => exact congrArg some (blank_rLoop rfl)
  case store => by_cases h : 0 < s.rread <;> simp [State.blank, h, zeros_length]
  case relCas => by_cases h : s.wset <;> simp [State.blank, h]
  case relRecv => by_cases h : s.closed <;> simp [State.blank, h]
  case reload => by_cases h : s.rpos = s.next <;> simp [State.blank, h]
  case waitCas => by_cases h : s.rset <;> simp [State.blank, h, rWaited]
  case waitSend => by_cases h : s.closed <;> simp [State.blank, h, rWaited]
  case get =>
    refine congrArg some (blank_rLoop ?_)
    simp only [State.blank, zeros_append, ← zeros_set s.rdst s.ri (s.mem s.rpos)]
    rfl
  case fstore => by_cases h : 0 < s.rread <;> simp [State.blank, h, zeros_length, rReturn, zeros_take, zeros_append]
  case frelCas => by_cases h : s.wset <;> simp [State.blank, h, rReturn, zeros_take, zeros_append]
  case frelRecv => by_cases h : s.closed <;> simp [State.blank, h, rReturn, zeros_take, zeros_append]

theorem blank_step (N : Nat) (a : Action) (s : State) : step N a.blank s.blank = (step N a s).map State.blank := by
  cases a with
  | callW data n =>
    by_cases h : s.wpc = .idle ∧ n ≤ data.length <;>
      simp [step, Action.blank, State.blank, zeros_length, h, zeros_take, zeros_append]
  | callR dst n =>
    by_cases h : s.rpc = .idle ∧ n ≤ dst.length <;>
      simp [step, Action.blank, State.blank, zeros_length, h]
  | w => exact blank_wStep N s
  | r => exact blank_rStep N s
  | handR =>
    by_cases h : s.rpc = .waitSend <;> by_cases h1 : s.wpc = .relRecv <;> by_cases h2 : s.wpc = .frelRecv <;>
      simp_all [step, Action.blank, State.blank, rWaited, wReleased, wReturn]
  | handW =>
    simp only [step, Action.blank, show s.blank.wpc = s.wpc from rfl, show s.blank.rpc = s.rpc from rfl]
    split
    · split
      · exact congrArg some (blank_wLoop rfl)
      · split
        · rw [blank_rReturn]
          exact congrArg some (blank_wLoop rfl)
        · rfl
    · rfl
  | close => rfl

theorem blank_run (N : Nat) : ∀ (as : List Action) (s : State),
    run N (as.map Action.blank) s.blank = (run N as s).map State.blank
  | [], _ => rfl
  | a :: as, s => by
    simp only [List.map_cons, run, blank_step]
    cases step N a s with
    | none => rfl
    | some s1 => exact blank_run N as s1

end Kafka.Ring
