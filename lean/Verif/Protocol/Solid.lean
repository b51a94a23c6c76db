import Verif.Protocol.Lemmas
/-!
Values of the protocol in which nothing is null, and that such a value is written like one that shows it.
-/
namespace Kafka.Protocol

mutual
/-- `x` is of the type and nothing in it, as far as the fields that are there at version `v` go, is null. -/
def Ty.Solid (v : Int16) : Ty → Val → Prop
  | .bool, .bool _ => True
  | .int8, .int8 _ => True
  | .int16, .int16 _ => True
  | .int32, .int32 _ => True
  | .int64, .int64 _ => True
  | .string, .str (some _) => True
  | .bytes, .bytes (some _) => True
  | .array t, .arr (some xs) => ∀ x ∈ xs, t.Solid v x
  | .struct fs, x => fs.Solid v x
  | _, _ => False

def Fields.Solid (v : Int16) : Fields → Val → Prop
  | .done, _ => True
  | .cons name since upto _ t rest, x => (Present v since upto → t.Solid v (x.get name)) ∧ rest.Solid v x
end

theorem flatMap_zip {α β : Type} {f : α → List β} : ∀ {xs ys : List α}, xs.length = ys.length →
    (∀ p ∈ xs.zip ys, f p.2 = f p.1) → ys.flatMap f = xs.flatMap f
  | [], [], _, _ => rfl
  | [], _ :: _, h, _ => by simp at h
  | _ :: _, [], h, _ => by simp at h
  | x :: xs, y :: ys, h, hp => by
    rw [List.flatMap_cons, List.flatMap_cons, hp (x, y) (by simp),
      flatMap_zip (by simpa using h) fun p h' => hp p (by simp [h'])]

mutual
theorem Ty.Solid.wire (flex : Bool) {v : Int16} : ∀ {t : Ty} {x y : Val}, t.Solid v x → t.shows v x y = true →
    t.wire flex v y = t.wire flex v x
  | .bool, x, y, h, hs => by cases x <;> cases y <;> simp_all [Ty.Solid, Ty.shows]
  | .int8, x, y, h, hs => by cases x <;> cases y <;> simp_all [Ty.Solid, Ty.shows]
  | .int16, x, y, h, hs => by cases x <;> cases y <;> simp_all [Ty.Solid, Ty.shows]
  | .int32, x, y, h, hs => by cases x <;> cases y <;> simp_all [Ty.Solid, Ty.shows]
  | .int64, x, y, h, hs => by cases x <;> cases y <;> simp_all [Ty.Solid, Ty.shows]
  | .string, x, y, h, hs => by
    cases x with
    | str s => cases s <;> cases y <;> simp_all [Ty.Solid, Ty.shows]
    | _ => simp only [Ty.Solid] at h
  | .bytes, x, y, h, hs => by
    cases x with
    | bytes s => cases s <;> cases y <;> simp_all [Ty.Solid, Ty.shows]
    | _ => simp only [Ty.Solid] at h
  | .array t, x, y, h, hs => by
    cases x with
    | arr xs =>
      cases xs with
      | none => simp only [Ty.Solid] at h
      | some xs =>
        cases y with
        | arr ys =>
          cases ys with
          | none => simp only [Ty.shows] at hs; cases hs
          | some ys =>
            rw [Ty.Solid] at h
            simp only [Ty.shows, Bool.and_eq_true, beq_iff_eq, List.all_eq_true] at hs
            rw [Ty.wire, Ty.wire, hs.1, flatMap_zip hs.1 fun p hp => Ty.Solid.wire flex (h p.1 (List.of_mem_zip hp).1) (hs.2 p hp)]
        | _ => simp only [Ty.shows] at hs; cases hs
    | _ => simp only [Ty.Solid] at h
  | .struct fs, x, y, h, hs => by
    rw [Ty.Solid] at h
    rw [Ty.shows] at hs
    rw [Ty.wire, Ty.wire, Fields.Solid.wire flex h hs]

theorem Fields.Solid.wire (flex : Bool) {v : Int16} : ∀ {fs : Fields} {x y : Val}, fs.Solid v x → fs.shows v x y = true →
    fs.wire flex v y = fs.wire flex v x
  | .done, _, _, _, _ => rfl
  | .cons name since upto nf t rest, x, y, h, hs => by
    rw [Fields.Solid] at h
    rw [Fields.shows, Bool.and_eq_true] at hs
    rw [Fields.wire, Fields.wire, Fields.Solid.wire flex h.2 hs.2]
    by_cases hp : Present v since upto
    · rw [if_pos hp, if_pos hp]
      rw [if_pos hp] at hs
      rw [Ty.Solid.wire flex (h.1 hp) hs.1]
    · rw [if_neg hp, if_neg hp]
end

end Kafka.Protocol
