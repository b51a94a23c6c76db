import Verif.Protocol.Inject
/-!
Whether a value is one of the protocol can be seen on the fields that are there.
-/
namespace Kafka.Protocol

open Ty

mutual
theorem Ty.valid_view (nulls : Bool) (v : Int16) : (t : Ty) → (null : Bool) → (x y : Val) →
    t.view v x = t.view v y → t.Valid nulls v null x → t.Valid nulls v null y
  | .bool, _, x, y, h, hx => by rw [Ty.view, Ty.view] at h <;> first | (rw [← h]; exact hx) | (intros; contradiction)
  | .int8, _, x, y, h, hx => by rw [Ty.view, Ty.view] at h <;> first | (rw [← h]; exact hx) | (intros; contradiction)
  | .int16, _, x, y, h, hx => by rw [Ty.view, Ty.view] at h <;> first | (rw [← h]; exact hx) | (intros; contradiction)
  | .int32, _, x, y, h, hx => by rw [Ty.view, Ty.view] at h <;> first | (rw [← h]; exact hx) | (intros; contradiction)
  | .int64, _, x, y, h, hx => by rw [Ty.view, Ty.view] at h <;> first | (rw [← h]; exact hx) | (intros; contradiction)
  | .string, _, x, y, h, hx => by rw [Ty.view, Ty.view] at h <;> first | (rw [← h]; exact hx) | (intros; contradiction)
  | .bytes, _, x, y, h, hx => by rw [Ty.view, Ty.view] at h <;> first | (rw [← h]; exact hx) | (intros; contradiction)
  | .array t, null, x, y, h, hx => by
    cases x with
    | arr l =>
      cases l with
      | none =>
        cases y with
        | arr l' => cases l' <;> simp only [Ty.view, reduceCtorEq, Val.arr.injEq] at h <;> exact hx
        | _ => simp [Ty.view] at h
      | some xs =>
        cases y with
        | arr l' =>
          cases l' with
          | none => simp [Ty.view] at h
          | some ys =>
            simp only [Ty.view, Val.arr.injEq, Option.some.injEq] at h
            rw [Ty.Valid] at hx ⊢
            have hl : xs.length = ys.length := by simpa using congrArg List.length h
            refine ⟨hl ▸ hx.1, fun y hy => ?_⟩
            obtain ⟨i, hi, rfl⟩ := List.getElem_of_mem hy
            have hi' : i < xs.length := hl ▸ hi
            have he : t.view v xs[i] = t.view v ys[i] := by
              have := congrArg (·[i]?) h
              simpa [hi, hi'] using this
            exact Ty.valid_view nulls v t false xs[i] ys[i] he (hx.2 _ (List.getElem_mem hi'))
        | _ => simp [Ty.view] at h
    | _ => simp [Ty.Valid] at hx
  | .struct fs, null, x, y, h, hx => by
    rw [Ty.view, Ty.view] at h
    rw [Ty.Valid] at hx ⊢
    exact Fields.valid_view nulls v fs x y (Val.struct.inj h) hx

theorem Fields.valid_view (nulls : Bool) (v : Int16) : (fs : Fields) → (x y : Val) →
    fs.view v x = fs.view v y → fs.Valid nulls v x → fs.Valid nulls v y
  | .done, _, _, _, _ => by rw [Fields.Valid]; trivial
  | .cons n s u nf t rest, x, y, h, hx => by
    rw [Fields.Valid] at hx ⊢
    rw [Fields.view, Fields.view] at h
    by_cases hp : Present v s u
    · rw [if_pos hp, if_pos hp] at h
      simp only [List.cons.injEq, Prod.mk.injEq, true_and] at h
      exact ⟨fun _ => Ty.valid_view nulls v t _ _ _ h.1 (hx.1 hp), Fields.valid_view nulls v rest x y h.2 hx.2⟩
    · rw [if_neg hp, if_neg hp] at h
      exact ⟨fun hp' => absurd hp' hp, Fields.valid_view nulls v rest x y h hx.2⟩
end

end Kafka.Protocol
