import Verif.Props.Timely
import Verif.Conn.Stream
/-!
C25 in every schedule whatsoever: where the bytes that `ReadN` returns come from.
-/
set_option linter.unusedSimpArgs false

namespace Kafka.Props

open Kafka Kafka.Ring

/-- What the byte `b`, the `k`-th to be read from a buffer of `N` cells, may be when the bytes `w` have been written: one of
them that went to the same cell, or zero, which is
what cells hold at first. -/
def FromCell (N : Nat) (w : List Byte) (k : Nat) (b : Byte) : Prop :=
  (∃ j, j < w.length ∧ j % N = k % N ∧ w[j]? = some b) ∨ b = 0

theorem FromCell.mono {N : Nat} {v w : List Byte} {k : Nat} {b : Byte} (h : FromCell N v k b) (hw : v <+: w) : FromCell N w k b := by
  obtain ⟨t, rfl⟩ := hw
  rcases h with ⟨j, h1, h2, h3⟩ | h
  · exact .inl ⟨j, by rw [List.length_append]; omega, h2, by rw [List.getElem?_append_left h1]; exact h3⟩
  · exact .inr h

/-- What a cell holds. -/
theorem cell_from {N : Nat} (hN : 0 < N) {s : State} (h : Hist N s) {p : Nat} (hp : p < N) :
    (∃ j, j < s.put.length ∧ j % N = p ∧ s.put[j]? = some (s.mem p)) ∨ (s.put.length ≤ p ∧ s.mem p = 0) := by
  by_cases hlt : p < s.put.length
  · left
    obtain ⟨q, hq⟩ : ∃ q, q = (s.put.length - 1 - p) / N := ⟨_, rfl⟩
    have h1 := Nat.div_add_mod (s.put.length - 1 - p) N
    have h2 := Nat.mod_lt (s.put.length - 1 - p) hN
    rw [← hq] at h1
    have hj : p + N * q < s.put.length := by omega
    have hm : (p + N * q) % N = p := by rw [Nat.add_mul_mod_self_left, Nat.mod_eq_of_lt hp]
    refine ⟨p + N * q, hj, hm, ?_⟩
    have := h.last (p + N * q) hj (by omega)
    rw [hm] at this
    rw [this, List.getElem?_eq_getElem hj, List.getD_eq_getElem?_getD, List.getElem?_eq_getElem hj]
    rfl
  · exact .inr ⟨by omega, h.fresh p (by omega) hp⟩

theorem Reach.fromCell {N : Nat} (hN : 0 < N) {ok : State → Action → Prop} {s : State} (h : Reach N ok s) :
    ∀ k b, s.got[k]? = some b → FromCell N s.put k b := by
  refine Reach.inv (P := fun s => ∀ k b, s.got[k]? = some b → FromCell N s.put k b) (by simp [Ring.init]) ?_ h
  intro a s s' hr hp _ hs k b hk
  rcases step_got hs with h1 | ⟨_, hpc, h1⟩
  · rw [h1] at hk
    exact (hp k b hk).mono (step_put hs)
  · rw [h1] at hk
    by_cases hlt : k < s.got.length
    · rw [List.getElem?_append_left hlt] at hk
      exact (hp k b hk).mono (step_put hs)
    · have hke : k = s.got.length := by
        have := List.getElem?_eq_some_iff.1 hk
        obtain ⟨this, _⟩ := this
        rw [List.length_append, List.length_singleton] at this
        omega
      subst hke
      simp at hk
      subst hk
      have hpos := (hr.pos hN).rpos (by rw [hpc]; rfl)
      rcases cell_from hN (hr.hist hN) (Nat.mod_lt s.got.length hN) with ⟨j, h2, h3, h4⟩ | ⟨_, h3⟩
      · exact FromCell.mono (.inl ⟨j, h2, h3, by rw [hpos]; exact h4⟩) (step_put hs)
      · exact .inr (by rw [hpos, h3])

/-- **C25, in every schedule.**  Whatever the goroutines do, the buffer makes no bytes up: each byte returned by `ReadN` was
passed to `WriteN` before, at a position that differs by a multiple of the capacity, or is the zero of a cell of the
new buffer.  (In the schedules of `C25_inTime_partial` the positions are equal; the example below has one where they
are not.) -/
theorem C25_cells {N : Nat} (hN : 0 < N) {s : State} (h : Reach N Any s) (k : Nat) (b : Byte) (hk : s.taken[k]? = some b) :
    (∃ j, j % N = k % N ∧ s.given[j]? = some b) ∨ b = 0 := by
  have hc := h.calls
  have hg : s.got[k]? = some b := by
    rw [hc.taken, List.getElem?_append_left]
    · exact hk
    · exact (List.getElem?_eq_some_iff.1 hk).1
  rcases (Reach.fromCell hN h k b hg).mono ⟨_, hc.given.symm⟩ with ⟨j, _, h1, h2⟩ | h1
  · exact .inl ⟨j, h1, h2⟩
  · exact .inr h1

/-- A schedule of a buffer of five cells: three bytes are written and read; a reader asks for four, two are written, and the
reader, woken, reads four. -/
def staleSchedule : List Action :=
  [.callW [1, 2, 3] 3] ++ List.replicate 7 .w ++ [.callR [9, 9, 9] 3] ++ List.replicate 7 .r ++
    [.callR [9, 9, 9, 9] 4] ++ List.replicate 5 .r ++ [.callW [7, 8] 2] ++ List.replicate 6 .w ++ [.handR] ++
    List.replicate 6 .r

/-- Non-trivial instance: the last two bytes read are those written five positions before. -/
example : ∃ s, run 5 staleSchedule init = some s ∧ s.rpc = .idle ∧ s.taken = [1, 2, 3, 7, 8, 1, 2] ∧ s.given = [1, 2, 3, 7, 8] :=
  ⟨(run 5 staleSchedule init).get (by decide +kernel), by simp, by decide +kernel, by decide +kernel, by decide +kernel⟩

/-- Non-trivial instance: or cells nothing was ever written to. -/
example : ∃ s, run 16 shortSchedule init = some s ∧ s.taken = [1, 2, 0, 0] ∧ s.given = [1, 2] :=
  ⟨(run 16 shortSchedule init).get (by decide +kernel), by simp, by decide +kernel, by decide +kernel⟩

/-! ### Connections -/

theorem _root_.Kafka.Conn.Parsed.mem {fs : List (List Byte)} {bs : List Byte} (h : Conn.Parsed fs bs) :
    ∀ f ∈ fs, ∀ b ∈ f, b ∈ bs := by
  induction h with
  | nil => intro f hf; cases hf
  | snoc v g _ _ ih =>
    intro f hf b hb
    rw [List.mem_append, List.mem_singleton] at hf
    rcases hf with hf | rfl
    · exact List.mem_append_left _ (List.mem_append_left _ (ih f hf b hb))
    · exact List.mem_append_right _ hb

/-- **C37, in every schedule.**  The frames that `messageLoop` takes apart consist of bytes the connection has received, and
zeros: nothing of another connection, of the requests, or of memory that was something else before gets into them. -/
theorem C37_cells {P : Conn.Params} (hN : 0 < P.ring) (hP : 4 ≤ P.buf) {s : Conn.State} (h : Conn.Reach P Conn.Any s) :
    ∀ f ∈ s.frames, ∀ b ∈ f, b ∈ s.received ∨ b = 0 := by
  intro f hf b hb
  have hst := h.stream hP
  have hring : Ring.Reach P.ring Ring.Any s.ring := h.ring (fun _ _ _ => trivial) (fun _ _ _ => trivial)
  have hmem : b ∈ s.ring.taken := by
    by_cases h1 : s.mpc = .inHead
    · obtain ⟨bs, hp, _, ht⟩ := hst.head h1
      rw [ht]
      exact List.mem_append_left _ (hp.mem f hf b hb)
    · by_cases h2 : ∃ size, s.mpc = .inBody size
      · obtain ⟨size, h2⟩ := h2
        obtain ⟨bs, v, hp, _, _, ht⟩ := hst.body size h2
        rw [ht]
        exact List.mem_append_left _ (List.mem_append_left _ (hp.mem f hf b hb))
      · exact (hst.out fun size => ⟨h1, fun h3 => h2 ⟨size, h3⟩⟩).2.mem f hf b hb
  obtain ⟨k, hk⟩ := List.mem_iff_getElem?.1 hmem
  rcases C25_cells hN hring k b hk with ⟨j, _, h1⟩ | h1
  · exact .inl (hst.given ▸ List.mem_of_getElem? h1)
  · exact .inr h1

end Kafka.Props
