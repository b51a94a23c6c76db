import Verif.Protocol.Schema
/-!
Lemmas: values without null byte strings are values.
-/
namespace Kafka.Protocol

mutual
/-- What is valid without null byte strings is valid. -/
theorem Ty.Valid.mono {v : Int16} : ∀ {t : Ty} {null : Bool} {x : Val}, t.Valid false v null x → t.Valid true v null x
  | .bool, _, x, h => by cases x <;> simp_all [Ty.Valid]
  | .int8, _, x, h => by cases x <;> simp_all [Ty.Valid]
  | .int16, _, x, h => by cases x <;> simp_all [Ty.Valid]
  | .int32, _, x, h => by cases x <;> simp_all [Ty.Valid]
  | .int64, _, x, h => by cases x <;> simp_all [Ty.Valid]
  | .string, _, .str none, h => by simpa [Ty.Valid] using h
  | .string, _, .str (some _), h => by simpa [Ty.Valid] using h
  | .bytes, _, .bytes none, h => by simp [Ty.Valid] at h
  | .bytes, _, .bytes (some _), h => by simpa [Ty.Valid] using h
  | .array t, _, .arr none, h => by simpa [Ty.Valid] using h
  | .array t, _, .arr (some xs), h => by
    rw [Ty.Valid] at h ⊢
    exact ⟨h.1, fun x hx => (h.2 x hx).mono⟩
  | .string, _, .bool _, h => by simp [Ty.Valid] at h
  | .string, _, .int8 _, h => by simp [Ty.Valid] at h
  | .string, _, .int16 _, h => by simp [Ty.Valid] at h
  | .string, _, .int32 _, h => by simp [Ty.Valid] at h
  | .string, _, .int64 _, h => by simp [Ty.Valid] at h
  | .string, _, .bytes _, h => by simp [Ty.Valid] at h
  | .string, _, .arr _, h => by simp [Ty.Valid] at h
  | .string, _, .struct _, h => by simp [Ty.Valid] at h
  | .bytes, _, .bool _, h => by simp [Ty.Valid] at h
  | .bytes, _, .int8 _, h => by simp [Ty.Valid] at h
  | .bytes, _, .int16 _, h => by simp [Ty.Valid] at h
  | .bytes, _, .int32 _, h => by simp [Ty.Valid] at h
  | .bytes, _, .int64 _, h => by simp [Ty.Valid] at h
  | .bytes, _, .str _, h => by simp [Ty.Valid] at h
  | .bytes, _, .arr _, h => by simp [Ty.Valid] at h
  | .bytes, _, .struct _, h => by simp [Ty.Valid] at h
  | .array _, _, .bool _, h => by simp [Ty.Valid] at h
  | .array _, _, .int8 _, h => by simp [Ty.Valid] at h
  | .array _, _, .int16 _, h => by simp [Ty.Valid] at h
  | .array _, _, .int32 _, h => by simp [Ty.Valid] at h
  | .array _, _, .int64 _, h => by simp [Ty.Valid] at h
  | .array _, _, .str _, h => by simp [Ty.Valid] at h
  | .array _, _, .bytes _, h => by simp [Ty.Valid] at h
  | .array _, _, .struct _, h => by simp [Ty.Valid] at h
  | .struct fs, _, x, h => by
    rw [Ty.Valid] at h ⊢
    exact Fields.Valid.mono h

theorem Fields.Valid.mono {v : Int16} : ∀ {fs : Fields} {x : Val}, fs.Valid false v x → fs.Valid true v x
  | .done, _, _ => by rw [Fields.Valid]; trivial
  | .cons name since upto nf t rest, x, h => by
    rw [Fields.Valid] at h ⊢
    exact ⟨fun hp => (h.1 hp).mono, Fields.Valid.mono h.2⟩
end

end Kafka.Protocol
