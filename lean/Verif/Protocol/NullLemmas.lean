import Verif.Protocol.ParseLemmas
import Verif.Protocol.Mono
/-!
Lemmas: the reader of Parse.lean comes to a length that cannot be on every value with a null byte string.
-/
namespace Kafka.Protocol

open Parsed Ty

theorem next_null {α β : Type} {x : α} {n : Nat} {as bs : List Byte} (q : α → List Byte → Parsed β)
    (hn : n = as.length) (hq : q x bs = .bad) : (Parsed.ok x n).next (as ++ bs) q = .bad := by
  subst hn
  simp [next, hq]

/-- If some element is bad, all of them are. -/
theorem times_bad {p : List Byte → Parsed Val} {w : Val → List Byte} : ∀ (l : List Val),
    (∀ x ∈ l, Rereads p w x ∨ ∀ tail, p (w x ++ tail) = .bad) → (∃ x ∈ l, ∀ tail, p (w x ++ tail) = .bad) →
    ∀ tail, times p l.length (l.flatMap w ++ tail) = .bad
  | [], _, h, _ => by simp at h
  | x :: l, h, hb, tail => by
    rw [List.flatMap_cons, List.length_cons, times, List.append_assoc]
    rcases h x (by simp) with h1 | h1
    · by_cases hx : ∀ tail, p (w x ++ tail) = .bad
      · rw [hx]; rfl
      · obtain ⟨y, h2, _⟩ := h1 (l.flatMap w ++ tail)
        rw [h2]
        refine next_null _ rfl ?_
        obtain ⟨z, hz, hz'⟩ := hb
        rw [times_bad l (fun z hz => h z (by simp [hz])) ⟨z, by
          rcases List.mem_cons.1 hz with rfl | hz
          · exact absurd hz' hx
          · exact hz, hz'⟩ tail]
        rfl
    · rw [h1]; rfl

mutual
theorem Ty.parse_null (v : Int16) : ∀ (t : Ty) (null : Bool) (x : Val), t.distinct = true → t.Valid true v null x →
    ¬ t.Valid false v null x → ∀ tail, t.parse v (t.wire false v x ++ tail) = .bad
  | .bool, _, x, _, h, h' => by cases x <;> simp_all [Ty.Valid]
  | .int8, _, x, _, h, h' => by cases x <;> simp_all [Ty.Valid]
  | .int16, _, x, _, h, h' => by cases x <;> simp_all [Ty.Valid]
  | .int32, _, x, _, h, h' => by cases x <;> simp_all [Ty.Valid]
  | .int64, _, x, _, h, h' => by cases x <;> simp_all [Ty.Valid]
  | .string, _, x, _, h, h' => by
    cases x with
    | str s => cases s <;> simp_all [Ty.Valid]
    | _ => simp [Ty.Valid] at h
  | .bytes, _, x, _, h, h' => by
    cases x with
    | bytes s =>
      cases s with
      | none =>
        intro tail
        have e : bytes.wire false v (.bytes none) = Wire.int32 (-1) := rfl
        rw [Ty.parse]
        simp only [e, parse32_wire]
        exact next_null _ rfl rfl
      | some s => simp_all [Ty.Valid]
    | _ => simp [Ty.Valid] at h
  | .array t, null, x, hd, h, h' => by
    rw [Ty.distinct] at hd
    cases x with
    | arr s =>
      cases s with
      | none => simp_all [Ty.Valid]
      | some l =>
        rw [Ty.Valid] at h h'
        have hn := ofNat_toInt32 h.1
        have e : ∀ l, (array t).wire false v (.arr (some l)) =
            Wire.int32 (Int32.ofNat l.length) ++ l.flatMap (t.wire false v) := fun l => by
          rw [Ty.wire, ← len32]; rfl
        intro tail
        have hb := times_bad (p := t.parse v) (w := t.wire false v) l
          (fun y hy => by
            by_cases hy' : t.Valid false v false y
            · exact .inl (t.parse_wire v false y hd hy')
            · exact .inr (t.parse_null v false y hd (h.2 y hy) hy'))
          (by
            refine Classical.byContradiction fun hno => h' ⟨h.1, fun y hy => ?_⟩
            refine Classical.byContradiction fun hy' => hno ⟨y, hy, ?_⟩
            exact t.parse_null v false y hd (h.2 y hy) hy') tail
        rw [Ty.parse, e]
        simp only [List.append_assoc, parse32_wire]
        refine next_null _ rfl ?_
        rw [if_neg (by omega), if_neg (by omega), hn, Int.toNat_natCast, hb]
        rfl
    | _ => simp [Ty.Valid] at h
  | .struct fs, _, x, hd, h, h' => by
    rw [Ty.distinct] at hd
    rw [Ty.Valid] at h h'
    intro tail
    have e : ∀ x, (struct fs).wire false v x = fs.wire false v x := fun x => by
      rw [Ty.wire]; simp
    rw [Ty.parse, e]
    simp only [fs.parse_null v x hd h h' tail, next]

theorem Fields.parse_null (v : Int16) : ∀ (fs : Fields) (x : Val), fs.distinct = true → fs.Valid true v x →
    ¬ fs.Valid false v x → ∀ tail, fs.parse v (fs.wire false v x ++ tail) = .bad
  | .done, x, _, _, h', _ => by rw [Fields.Valid] at h'; exact absurd trivial h'
  | .cons name s up nf t rest, x, hd, h, h', tail => by
    rw [Fields.distinct, Bool.and_eq_true, Bool.and_eq_true] at hd
    obtain ⟨⟨hd1, -⟩, hd3⟩ := hd
    rw [Fields.Valid] at h h'
    rw [Fields.parse, Fields.wire]
    by_cases hp : Present v s up
    · simp only [if_pos hp, List.append_assoc]
      by_cases hx : t.Valid false v (nf.any (· ≤ v)) (x.get name)
      · obtain ⟨y, h3, _⟩ := t.parse_wire v _ _ hd1 hx (rest.wire false v x ++ tail)
        rw [h3]
        refine next_null _ rfl ?_
        rw [rest.parse_null v x hd3 h.2 (fun hr => h' ⟨fun _ => hx, hr⟩) tail]
        rfl
      · rw [t.parse_null v _ _ hd1 (h.1 hp) hx]
        rfl
    · simp only [if_neg hp, List.nil_append]
      exact rest.parse_null v x hd3 h.2 (fun hr => h' ⟨fun hp' => absurd hp' hp, hr⟩) tail
end

end Kafka.Protocol
