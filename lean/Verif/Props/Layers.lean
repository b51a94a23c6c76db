import Verif.Conn.Layers
import Verif.Props.Alias

/-!
Property C50: exactly when the byte slices in a reply keep their contents.
-/
namespace Kafka.Props

open Conn

theorem goSlice_eq {m m' : List Byte} {a b : Int} {v : List Byte} (hl : m.length = m'.length)
    (h : goSlice m' a b = some v) :
    goSlice m a b = some v ↔ ∀ i : Nat, a ≤ i → i < b → m[i]? = m'[i]? := by
  unfold goSlice at h ⊢
  split at h
  · rename_i hb
    rw [if_pos (by rw [hl]; exact hb)]
    cases h
    rw [Option.some.injEq]
    constructor
    · intro h i h1 h2
      have h3 := congrArg (fun l => l[i - a.toNat]?) h
      simp only [List.getElem?_take, List.getElem?_drop] at h3
      rwa [if_pos (by omega), if_pos (by omega), show a.toNat + (i - a.toNat) = i by omega] at h3
    · intro h
      apply List.ext_getElem?
      intro i
      simp only [List.getElem?_take, List.getElem?_drop]
      split
      · exact h _ (by omega) (by omega)
      · rfl
  · cases h

/-- Exactly when it is true, in all schedules from the moment at which `messageLoop` is about to hand over the reply
`d`, but for moments at which it is reading the payload of a frame: if frames `new` have been read since, a slice of
the reply, being the bytes `a` to `b` of the buffer, has the contents it was returned with exactly when each of its
bytes is the same in the last of the frames that are long enough to have that byte, if there is one. -/
theorem C50_exact {P : Params} {ok : Conn.State → Act → Prop} {s s' : Conn.State} (h : Conn.Reach P ok s) {d : Decoder}
    {c : Nat} (hd : s.mpc = .send d c) {as : List Act} (hr : Conn.run P as s = some s')
    (hm : ∀ size, s'.mpc ≠ .inBody size) : ∃ new, s'.frames = s.frames ++ new ∧
    ∀ {d' : Decoder} {o a b : Int} {v : List Byte}, 4 ≤ a → Dec.bytesAt { d with offset := o } = .ok (a, b) d' →
      Dec.bytes { d with offset := o } = .ok (some v) d' →
      (goSlice s'.memory a b = some v ↔ ∀ i : Nat, a ≤ i → i < b →
        ∀ f, new.reverse.find? (fun f => decide (i < f.length)) = some f → f[i]? = d.raw[i]?) := by
  have hraw := h.memory d (by rw [hd]; rfl)
  obtain ⟨new, h1, h2, h3⟩ := run_layers h (by rw [hd]; simp) (by rw [hd]; simp) hr hm
  refine ⟨new, h1, fun {d' o a b v} h4 ha hb => ?_⟩
  obtain ⟨w, hw, hw'⟩ := Dec.bytes_at ha
  rw [hw'] at hb
  cases hb
  rw [goSlice_eq (by rw [h2, hraw]) hw]
  refine forall_congr' fun i => forall_congr' fun hi => forall_congr' fun _ => ?_
  have h5 := congrArg (fun l => l[i - 4]?) h3
  simp only [List.getElem?_drop] at h5
  rw [show 4 + (i - 4) = i by omega, layers_get, ← hraw] at h5
  rw [h5]
  cases new.reverse.find? (fun f => decide (i < f.length)) with
  | none => simp
  | some f => simp

/-- In particular a slice is kept while only shorter frames, which end before it, are read. -/
theorem C50_short {P : Params} {ok : Conn.State → Act → Prop} {s s' : Conn.State} (h : Conn.Reach P ok s) {d : Decoder}
    {c : Nat} (hd : s.mpc = .send d c) {as : List Act} (hr : Conn.run P as s = some s')
    (hm : ∀ size, s'.mpc ≠ .inBody size) {d' : Decoder} {o a b : Int} {v : List Byte} (h4 : 4 ≤ a)
    (ha : Dec.bytesAt { d with offset := o } = .ok (a, b) d')
    (hb : Dec.bytes { d with offset := o } = .ok (some v) d')
    (hs : ∀ f ∈ s'.frames.drop s.frames.length, (f.length : Int) ≤ a) : goSlice s'.memory a b = some v := by
  obtain ⟨new, h1, h2⟩ := C50_exact h hd hr hm
  refine (h2 h4 ha hb).2 fun i h3 _ f hf => ?_
  have h5 := hs f (by rw [h1, List.drop_left]; exact List.mem_reverse.1 (List.mem_of_find?_eq_some hf))
  have h6 := List.find?_some hf
  simp only [decide_eq_true_eq] at h6
  omega

/-! ### Examples -/

/-- A second call is answered with the bytes `x`, `y`. -/
def answeredAgain (x y : Byte) : List Act :=
  [.message, .call 0] ++ authenticate 1 2 x y ++ dispatch ++ [.message, .call 1]

/-- The hypotheses of `C50_exact` are met when a second call has been answered: the slice is changed by the bytes 3, 4,
and kept by the same bytes 1, 2. -/
example : ((Conn.run large authenticated (Conn.init large)).bind fun s =>
      (Conn.run large (answeredAgain 3 4) s).map fun s' =>
        (s.mpc, s'.mpc, s'.frames.drop s.frames.length, goSlice s'.memory 12 14)) =
      some (.send (saslReply 1 1 2) 0, .top, [[0, 0, 0, 2, 0, 0, 0, 0, 0, 0, 0, 2, 3, 4]], some [3, 4]) ∧
    ((Conn.run large authenticated (Conn.init large)).bind fun s =>
      (Conn.run large (answeredAgain 1 2) s).map fun s' =>
        (s.mpc, s'.mpc, s'.frames.drop s.frames.length, goSlice s'.memory 12 14)) =
      some (.send (saslReply 1 1 2) 0, .top, [[0, 0, 0, 2, 0, 0, 0, 0, 0, 0, 0, 2, 1, 2]], some [1, 2]) := by
  constructor <;> decide +kernel

/-- A frame of six bytes, for no call, is read. -/
def shortFrame : List Act :=
  [.message, .call 0, .read [0, 0, 0, 6, 0, 0, 0, 9, 7, 7]] ++ List.replicate 14 (.ring .w) ++ [.readNext] ++
  [.message] ++ List.replicate 8 (.ring .r) ++ [.message] ++ List.replicate 10 (.ring .r) ++ List.replicate 5 .message

/-- The hypotheses of `C50_short` are met when a frame of six bytes has been read. -/
example : ((Conn.run large authenticated (Conn.init large)).bind fun s =>
      (Conn.run large shortFrame s).map fun s' =>
        (s'.mpc, s'.frames.drop s.frames.length, goSlice s'.memory 0 6, goSlice s'.memory 12 14)) =
      some (.top, [[0, 0, 0, 9, 7, 7]], some [0, 0, 0, 9, 7, 7], some [1, 2]) := by
  decide +kernel

end Kafka.Props
