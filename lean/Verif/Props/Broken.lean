import Verif.Props.Writer

/-!
Property C12 for all encoder methods, over writers that stay broken once they have failed.
-/
namespace Kafka.Props

/-- Once a `Write` has failed all later ones fail too, and accept nothing. -/
def StaysBroken (faults : Nat → Option (Nat × WErr)) : Prop :=
  ∀ k, faults k ≠ none → ∀ j, k < j → ∃ x, faults j = some (0, x)

/-- What happens to an encoder: it has failed and nothing more is written, or it has not, and all of `bs` is written, or the
first part of it up to the first write that fails. -/
structure Went (e e' : Encoder) (bs : List Byte) : Prop where
  faults : e'.faults = e.faults
  calls : e.calls ≤ e'.calls
  dead : e.err ≠ none → (∀ j, e.calls ≤ j → ∃ x, e.faults j = some (0, x)) → e'.err ≠ none ∧ e'.out = e.out
  fine : e.err = none → (e'.err = none ∧ e'.out = e.out ++ bs ∧ ∀ k, e.calls ≤ k → k < e'.calls → e.faults k = none) ∨
    (e'.err ≠ none ∧ (∃ p, p <+: bs ∧ e'.out = e.out ++ p) ∧ ∃ k, e.calls ≤ k ∧ k < e'.calls ∧ e.faults k ≠ none)

theorem _root_.Kafka.Prog.went {faults : Nat → Option (Nat × WErr)} (hb : StaysBroken faults) :
    ∀ (p : Prog) (e : Encoder), e.faults = faults → Went e (p.run e) p.bytes
  | .skip, e, _ => ⟨rfl, Nat.le_refl _, fun h _ => ⟨h, rfl⟩,
      fun h => .inl ⟨h, by simp [Prog.run, Prog.bytes], fun k h1 h2 => absurd h2 (by simp only [Prog.run]; omega)⟩⟩
  | .chunk str c, e, hf => by
    simp only [Prog.run, Prog.bytes, Encoder.targetWrite]
    cases hx : e.faults e.calls with
    | none =>
      refine ⟨rfl, Nat.le_succ _, fun _ h => ?_, fun _ => .inl ⟨rfl, rfl, fun k h1 h2 => ?_⟩⟩
      · obtain ⟨x, h1⟩ := h e.calls (Nat.le_refl _)
        rw [hx] at h1; cases h1
      · simp only at h2
        rw [show k = e.calls by omega]; exact hx
    | some mx =>
      obtain ⟨m, x⟩ := mx
      refine ⟨rfl, Nat.le_succ _, fun _ h => ⟨by simp, ?_⟩, fun _ => .inr ⟨by simp, ⟨c.take m, List.take_prefix _ _, rfl⟩,
        e.calls, Nat.le_refl _, Nat.lt_succ_self _, by rw [hx]; simp⟩⟩
      obtain ⟨y, h1⟩ := h e.calls (Nat.le_refl _)
      rw [hx] at h1; cases h1
      simp
  | .seq p q, e, hf => by
    obtain ⟨f1, c1, d1, g1⟩ := Prog.went hb p e hf
    obtain ⟨f2, c2, d2, g2⟩ := Prog.went hb q (p.run e) (f1.trans hf)
    simp only [Prog.run, Prog.bytes]
    refine ⟨f2.trans f1, Nat.le_trans c1 c2, fun h1 h2 => ?_, fun h => ?_⟩
    · obtain ⟨h3, h4⟩ := d1 h1 h2
      obtain ⟨h5, h6⟩ := d2 h3 fun j hj => by rw [f1]; exact h2 j (Nat.le_trans c1 hj)
      exact ⟨h5, h6.trans h4⟩
    · rcases g1 h with ⟨h1, h2, h3⟩ | ⟨h1, ⟨w, h2, h3⟩, k, h4, h5, h6⟩
      · rcases g2 h1 with ⟨h4, h5, h6⟩ | ⟨h4, ⟨w, h5, h6⟩, k, h7, h8, h9⟩
        · refine .inl ⟨h4, by rw [h5, h2, List.append_assoc], fun k hk hk' => ?_⟩
          by_cases hlt : k < (p.run e).calls
          · exact h3 k hk hlt
          · rw [← f1]; exact h6 k (by omega) hk'
        · exact .inr ⟨h4, ⟨p.bytes ++ w, (List.prefix_append_right_inj _).2 h5, by rw [h6, h2, List.append_assoc]⟩,
            k, by omega, h8, by rw [← f1]; exact h9⟩
      · obtain ⟨h7, h8⟩ := d2 h1 fun j hj => by
          rw [f1, hf]; exact hb k (by rw [← hf]; exact h6) j (by omega)
        exact .inr ⟨h7, ⟨w, h2.trans (List.prefix_append _ _), h8.trans h3⟩, k, h4, by omega, h6⟩
  | .guard p, e, hf => by
    simp only [Prog.run, Prog.bytes]
    split
    · rename_i h
      exact ⟨rfl, Nat.le_refl _, fun h _ => ⟨h, rfl⟩, fun h' => by rw [h'] at h; cases h⟩
    · exact Prog.went hb p e hf

/-- C12 for every sequence of calls of encoder methods, the ones that lose errors included, over writers that stay broken: what
has reached the writer is a part from the start of the encoding; there is no error, and so `Flush` reports none but its target's,
exactly when no write has failed, and then all has reached it; after an error nothing more does, and there still is an error.
Missing: other writers, see `C12_varBytes_fails` and `C12_varString_fails`. -/
theorem C12_broken_partial {faults : Nat → Option (Nat × WErr)} (hb : StaysBroken faults) (ops more : List SendOp) :
    let f := fun e : Encoder => ops.foldl (fun e op => op.run e) e
    let e := f (newEncoder faults)
    e.out <+: bytesOf f ∧ (e.err = none ↔ ∀ k < e.calls, faults k = none) ∧ (e.err = none → e.out = bytesOf f) ∧
      (e.err ≠ none → (∀ target, e.flush target ≠ none) ∧
        (more.foldl (fun e op => op.run e) e).out = e.out ∧ (more.foldl (fun e op => op.run e) e).err ≠ none) := by
  intro f e
  obtain ⟨p, hp⟩ := C59_methods ops
  obtain ⟨q, hq⟩ := C59_methods more
  have h := p.went hb (newEncoder faults) rfl
  have he : e = p.run (newEncoder faults) := hp _
  have hbytes : bytesOf f = p.bytes := hp.bytes
  rw [← he] at h
  rw [hbytes]
  have hcl : (newEncoder faults).calls = 0 := rfl
  have hout : (newEncoder faults).out = [] := rfl
  have hfl : (newEncoder faults).faults = faults := rfl
  rcases h.fine rfl with ⟨h1, h2, h3⟩ | ⟨h1, ⟨w, h2, h3⟩, k, h4, h5, h6⟩
  · rw [hout, List.nil_append] at h2
    refine ⟨by rw [h2]; exact List.prefix_rfl, ⟨fun _ k hk => h3 k (Nat.zero_le _) hk, fun _ => h1⟩, fun _ => h2,
      fun hx => absurd h1 hx⟩
  · rw [hout, List.nil_append] at h3
    refine ⟨by rw [h3]; exact h2, ⟨fun hx => absurd hx h1, fun hx => absurd (hx k h5) h6⟩, fun hx => absurd hx h1,
      fun _ => ⟨fun t => ?_, ?_⟩⟩
    · unfold Encoder.flush
      cases hx : e.err with
      | none => exact absurd hx h1
      | some x => simp
    · have h7 : ∀ j, e.calls ≤ j → ∃ x, e.faults j = some (0, x) := fun j hj => by
        rw [h.faults, hfl]
        exact hb k h6 j (by omega)
      have h8 := (q.went hb e (h.faults.trans hfl)).dead h1 h7
      rw [show more.foldl (fun e op => op.run e) e = q.run e from hq e]
      exact ⟨h8.2, h8.1⟩

/-- A writer that breaks within the second write and stays so; the errors differ. -/
def breaks (k : Nat) : Option (Nat × WErr) := if k = 0 then none else if k = 1 then some (1, ⟨7⟩) else some (0, ⟨8⟩)

theorem breaks_stays : StaysBroken breaks := by
  intro k hk j hj
  have h0 : k ≠ 0 := by rintro rfl; exact hk rfl
  exact ⟨⟨8⟩, by unfold breaks; rw [if_neg (by omega), if_neg (by omega)]⟩

/-- The hypotheses are met; also of the `PutVarBytes` that loses the first error there is no more than a part from the start. -/
example : (fun e : Encoder => (e.out, e.err, e.calls))
      ([SendOp.put (.int8 5), .varBytes (some [1, 2]), .varString (goString "a")].foldl (fun e op => op.run e)
        (newEncoder breaks)) = ([5, 4], some ⟨8⟩, 3) := by
  decide +kernel

end Kafka.Props
