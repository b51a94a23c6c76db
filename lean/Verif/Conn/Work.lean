import Verif.Props.Close
import Verif.Props.Timely
/-!
How much the goroutines of a connection do for each byte they read.
-/
set_option linter.unusedSimpArgs false

namespace Kafka.Ring

/-- Bound on the operations of the reader since it has last read a byte (or since the call began), and 7 for each of
the bytes before. -/
def RPc.used : RPc → Nat
  | .load1 => 0
  | .load2 => 1
  | .store => 2
  | .relCas => 3
  | .relRecv => 4
  | .reload => 5
  | .waitCas => 6
  | .waitSend => 7
  | .get => 8
  | .fstore => 9
  | .frelCas => 10
  | .frelRecv => 11
  | .idle => 12

theorem RPc.used_le (p : RPc) : p.used ≤ 12 := by cases p <;> decide

def rWork (s : State) : Nat := 7 * s.got.length + s.rpc.used

theorem rWork_rLoop (s : State) : 7 * s.got.length + 2 ≤ rWork (rLoop s) := by
  unfold rLoop
  split
  · split <;> simp only [rWork, RPc.used] <;> omega
  · simp only [rWork, RPc.used]; omega

theorem rStep_rWork {N : Nat} {s s' : State} (hs : rStep N s = some s') : rWork s + 1 ≤ rWork s' := by
  unfold rStep at hs
  split at hs <;> rename_i hpc
  all_goals have hw : rWork s = 7 * s.got.length + RPc.used _ := congrArg (fun p => 7 * s.got.length + RPc.used p) hpc
  all_goals rw [hw]
  case h_1 => simp at hs
  case h_3 =>
    simp only [Option.some.injEq] at hs; subst hs
    exact Nat.le_trans (by simp only [RPc.used]; omega) (rWork_rLoop _)
  case h_10 =>
    simp only [Option.some.injEq] at hs; subst hs
    exact Nat.le_trans (by simp only [RPc.used, List.length_append, List.length_singleton]; omega) (rWork_rLoop _)
  all_goals
    (try split at hs) <;> simp only [Option.some.injEq, reduceCtorEq] at hs <;> subst hs <;>
    (try split) <;> simp only [rWork, RPc.used, rWaited, rReturn] <;> omega

theorem wLoop_rWork (s : State) : rWork (wLoop s) = rWork s := by unfold wLoop; split <;> rfl

theorem wStep_rWork {N : Nat} {s s' : State} (hs : wStep N s = some s') : rWork s' = rWork s := by
  unfold wStep at hs
  split at hs <;> (try split at hs) <;> simp only [Option.some.injEq, reduceCtorEq] at hs <;> subst hs <;>
    (try split) <;> first
      | rfl
      | (simp only [wWaited, wLoop_rWork]; rfl)

/-- Every operation of the reader within a call counts, and none of the writer takes anything back. -/
theorem step_rWork {N : Nat} {a : Action} (ha : a.isCallR = false) {s s' : State} (hs : step N a s = some s') :
    (if a.ofReader then 1 else 0) + rWork s ≤ rWork s' := by
  cases a with
  | callR => simp [Action.isCallR] at ha
  | callW dst n =>
    simp only [step] at hs
    split at hs
    · simp only [Option.some.injEq] at hs; subst hs
      simp [Action.ofReader, rWork]
    · simp at hs
  | r => have := rStep_rWork hs; simp only [Action.ofReader, if_true]; omega
  | w => have := wStep_rWork hs; simp [Action.ofReader, this]
  | close =>
    simp only [step, Option.some.injEq] at hs; subst hs
    simp [Action.ofReader, rWork]
  | _ =>
    simp only [step] at hs
    (repeat' split at hs) <;> simp only [Option.some.injEq, reduceCtorEq] at hs <;> subst hs <;>
      simp_all [Action.ofReader, wWaited, wReleased, wReturn, wLoop_rWork] <;>
      simp_all [rWork, rWaited, rReturn, RPc.used] <;> omega

/-- What is left of a `WriteN` call costs at most 7 operations per byte. -/
theorem wCost_le {s : State} (h : Calls s) : wCost s + 7 * s.put.length ≤ 7 * s.given.length + 10 := by
  have h1 := congrArg List.length h.given
  have h2 := h.wlen
  have h3 := h.wbody
  simp only [List.length_append, List.length_drop, List.length_take] at h1
  unfold wCost
  cases hp : s.wpc <;> simp only [hp, WPc.cost, WPc.wrote, WPc.after] at h1 h3 ⊢ <;> simp at h3 <;> omega

/-- The bytes of the header that have been read in this call. -/
def RPc.header (i : Nat) : RPc → Nat
  | .idle => 4
  | .load1 | .load2 => 0
  | _ => i

/-- In a call of `ReadN` for four bytes. -/
theorem step_header {N : Nat} {a : Action} (ha : a.isCallR = false) {s s' : State} (hc : Calls s) (hn : s.rn = 4)
    (hs : step N a s = some s') : s'.rpc.header s'.ri + s.got.length ≤ s.rpc.header s.ri + s'.got.length := by
  have hL : ∀ t : State, (rLoop t).rpc.header (rLoop t).ri = t.ri ∧ (rLoop t).got = t.got := fun t => by
    unfold rLoop
    split
    · split <;> exact ⟨rfl, rfl⟩
    · exact ⟨rfl, rfl⟩
  have hW : ∀ t : State, (wLoop t).rpc = t.rpc ∧ (wLoop t).ri = t.ri ∧ (wLoop t).got = t.got := fun t => by
    unfold wLoop
    split <;> exact ⟨rfl, rfl, rfl⟩
  have he := hc.rend
  cases a <;> simp only [step, wStep, rStep] at hs
  case callR => simp [Action.isCallR] at ha
  all_goals
    (repeat' split at hs) <;> simp only [Option.some.injEq, reduceCtorEq] at hs <;> subst hs <;>
      simp_all [wWaited, wReleased, wReturn, rWaited, rReturn, RPc.header, RPc.ending] <;> omega

end Kafka.Ring

namespace Kafka.Conn

/-- Bound on the operations of `messageLoop` since it has last read a whole frame, outside `ReadN`, with 13 for each
call of `ReadN`. -/
def MPc.used : MPc → Nat
  | .rlock _ _ => 0
  | .lookup _ _ => 1
  | .delete _ _ _ => 2
  | .runlock _ _ => 3
  | .decode _ _ => 4
  | .send _ _ => 5
  | .top => 7
  | .exited => 8
  | .inHead => 20
  | .inBody _ => 33

theorem MPc.used_le (p : MPc) : p.used ≤ 33 := by cases p <;> simp only [MPc.used] <;> omega

/-- Grows with every operation of `messageLoop`, and only as it reads bytes and frames. -/
def mWork (s : State) : Nat := Ring.rWork s.ring + 34 * s.frames.length + s.mpc.used

/-- Four bytes for every frame. -/
def headerBytes (s : State) : Nat :=
  4 * s.frames.length + match s.mpc with
    | .inHead => s.ring.rpc.header s.ring.ri
    | .inBody _ => 4
    | _ => 0

theorem callR_work {N : Nat} {dst : List Byte} {n : Nat} {r r' : Ring.State} (h : Ring.step N (.callR dst n) r = some r') :
    r.rpc = .idle ∧ r'.rpc = .load1 ∧ r'.got = r.got := by
  obtain ⟨h1, _, rfl⟩ := ring_callR h
  exact ⟨h1, rfl, rfl⟩

theorem mWork_step {P : Params} {s s' : State} {a : Act} (ht : Trans P s a s') (hs : s'.crashed = false) :
    (if a.ofMessage = true then 1 else 0) + mWork s ≤ mWork s' := by
  cases ht
  case ring a r ha hr =>
    have h1 := Ring.step_rWork (inRing_calls ha).1 hr
    show (if a.ofReader = true then 1 else 0) + _ ≤ _
    simp only [mWork]
    omega
  case rbClose k r h hr =>
    have h1 := Ring.step_rWork rfl hr
    simp only [Act.ofMessage, mWork]
    simp at h1 ⊢
    simpa [Ring.Action.ofReader] using h1
  case read data r h1 h2 h3 hr =>
    have h1 := Ring.step_rWork rfl hr
    simp only [Act.ofMessage, mWork]
    simpa [Ring.Action.ofReader] using h1
  case head r h hc hr =>
    obtain ⟨h1, h2, h3⟩ := callR_work hr
    simp only [Act.ofMessage, mWork, h, Ring.rWork, h1, h2, h3, Ring.RPc.used, MPc.used]
    simp
    omega
  case body size r h hi' hsz hr =>
    obtain ⟨h1, h2, h3⟩ := callR_work hr
    simp only [Act.ofMessage, mWork, h, Ring.rWork, h1, h2, h3, Ring.RPc.used, MPc.used]
    simp
    omega
  all_goals (simp_all [Act.ofMessage, mWork, State.set, MPc.used] <;> omega)

theorem headerBytes_step {P : Params} {s s' : State} {a : Act} (hc : Ring.Calls s.ring)
    (hn : s.mpc = .inHead → s.ring.rn = 4) (ht : Trans P s a s') (hs : s'.crashed = false) :
    headerBytes s' + s.ring.got.length ≤ headerBytes s + s'.ring.got.length := by
  have hg : ∀ {a : Ring.Action} {r : Ring.State}, Ring.step P.ring a s.ring = some r → s.ring.got.length ≤ r.got.length :=
    fun {a} {r} hr => by
      rcases Props.step_got hr with h | ⟨_, _, h⟩ <;> rw [h]
      · exact Nat.le_refl _
      · simp
  have hring : ∀ {a : Ring.Action} {r : Ring.State}, a.isCallR = false → Ring.step P.ring a s.ring = some r →
      (4 * s.frames.length + match s.mpc with
        | .inHead => r.rpc.header r.ri
        | .inBody _ => 4
        | _ => 0) + s.ring.got.length ≤ headerBytes s + r.got.length := by
    intro a r ha hr
    have h1 := hg hr
    unfold headerBytes
    cases hm : s.mpc with
    | inHead =>
      have h2 := Ring.step_header ha hc (hn hm) hr
      simp only
      omega
    | _ => simp only; omega
  cases ht
  case ring a r ha hr => exact hring (inRing_calls ha).1 hr
  case rbClose k r h hr => exact hring rfl hr
  case read data r h1 h2 h3 hr => exact hring rfl hr
  case head r h hc' hr =>
    obtain ⟨h1, h2, h3⟩ := callR_work hr
    simp [headerBytes, h, h2, h3, Ring.RPc.header]
  case body size r h hi' hsz hr =>
    obtain ⟨h1, h2, h3⟩ := callR_work hr
    simp [headerBytes, h, h1, h3, Ring.RPc.header]
  all_goals (simp_all [headerBytes, State.set] <;> omega)

/-- The number of times `raw.Read` has returned bytes, or none, without an error. -/
def Act.isRead : Act → Bool
  | .read _ => true
  | _ => false

theorem lWork_step {P : Params} {s s' : State} {a : Act} (hi : s.lpc ≠ .inWrite → s.ring.wpc = .idle) (ht : Trans P s a s') :
    (if a.ofRead = true then 1 else 0) + lCost s' + 7 * s.received.length ≤
      lCost s + 7 * s'.received.length + (if a.isRead = true then 7 else 0) := by
  by_cases hr : a.isRead = true
  · cases ht <;> simp [Act.isRead] at hr
    case read data r h1 h2 h3 hst =>
      simp only [Ring.step] at hst
      split at hst
      · simp only [Option.some.injEq] at hst; subst hst
        simp only [Act.ofRead, Act.isRead, lCost, h1, Ring.wCost, Ring.WPc.cost, List.length_append, if_true]
        omega
      · cases hst
  · cases ht
    case read => simp [Act.isRead] at hr
    case ring a r ha hr' =>
      have h1 := Ring.step_wCost (inRing_calls ha).2 hr'
      have hidle : s.ring.wpc = .idle → a.ofWriter = false := fun h => by
        cases a <;> simp [inRing] at ha <;> simp [Ring.step, Ring.wStep, h, Ring.Action.ofWriter] at hr' ⊢
      show (if a.ofWriter = true then 1 else 0) + _ + _ ≤ _
      simp only [lCost, Act.isRead]
      cases h : s.lpc <;> simp only [h] at hi <;> first
        | (dsimp only; omega)
        | (have h2 := hidle (hi (by simp)); simp [h2])
    case rbClose k r h hst =>
      have h1 := Ring.step_wCost rfl hst
      simp only [Act.ofRead, lCost, Act.isRead]
      cases h : s.lpc <;> simp <;> omega
    case head r _ _ hst =>
      have h1 := Ring.step_wCost rfl hst
      simp only [Act.ofRead, lCost, Act.isRead]
      cases h : s.lpc <;> simp <;> omega
    case body size r _ _ _ hst =>
      have h1 := Ring.step_wCost rfl hst
      simp only [Act.ofRead, lCost, Act.isRead]
      cases h : s.lpc <;> simp <;> omega
    case readNext h hw => simp [Act.ofRead, Act.isRead, lCost, h, Ring.wCost, hw]
    case full => simp [Act.ofRead, Act.isRead, Ring.Action.ofWriter, lCost]
    all_goals simp_all [Act.ofRead, Act.isRead, lCost, State.set]

end Kafka.Conn
