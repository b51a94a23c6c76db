import Verif.Message.StepLemmas
/-!
Fields that exist only in some versions of a message.
-/
namespace Kafka

/-- A field of a message type that is present only in some versions. -/
structure Gate where
  M : MsgType
  L : Layout M
  /-- the Go name of the field -/
  field : String
  α : Type
  present : Int16 → Prop
  get : M.T → α
  set : M.T → α → M.T

/-- In versions without the field, neither encoding nor size depends on it and decoding
leaves it alone; in versions with it, what a reader sees does not depend on what the
receiver held before. -/
structure Gate.Holds (g : Gate) : Prop where
  get_set : ∀ t x, g.get (g.set t x) = x
  encode : ∀ v, ¬ g.present v → ∀ t x, g.M.encode v (g.set t x) = g.M.encode v t
  size : ∀ v, ¬ g.present v → ∀ t x, g.M.size v (g.set t x) = g.M.size v t
  decode : ∀ v, ¬ g.present v → ∀ t0 d t d', g.M.decode v t0 d = .ok t d' → g.get t = g.get t0
  carried : ∀ v, g.present v → ∀ t t0 t1, g.get (g.L.seen v t t0) = g.get (g.L.seen v t t1)

theorem onlyIf_neg {σ : Type} {c : Prop} [Decidable c] {f : σ → σ} (h : ¬c) :
    onlyIf c f = nop := by
  funext s; unfold onlyIf nop; rw [if_neg h]

/-- `step` leaves a part of the receiver alone. -/
def Keeps {τ α : Type} (get : τ → α) (step : τ → Dec τ) : Prop :=
  ∀ t d t' d', step t d = .ok t' d' → get t' = get t

theorem bind_ok_inv {α β : Type} {m : Dec α} {k : α → Dec β} {d d' : Decoder} {b : β}
    (h : (m >>= k) d = .ok b d') : ∃ a d1, m d = .ok a d1 ∧ k a d1 = .ok b d' := by
  cases hm : m d with
  | ok a d1 => exact ⟨a, d1, rfl, (bind_ok (k := k) hm).symm.trans h⟩
  | err e d1 => rw [bind_err hm] at h; simp at h
  | panic => rw [bind_panic hm] at h; simp at h

theorem Keeps.andThen {τ α : Type} {get : τ → α} {f g : τ → Dec τ} (hf : Keeps get f)
    (hg : Keeps get g) : Keeps get (f ;> g) := by
  intro t d t' d' h
  obtain ⟨t1, d1, h1, h2⟩ := bind_ok_inv h
  rw [hg t1 d1 t' d' h2, hf t d t1 d1 h1]

theorem Keeps.field {τ α β : Type} {get : τ → α} {m : Dec β} {set : τ → β → τ}
    (h : ∀ t x, get (set t x) = get t) : Keeps get (Dec.field m set) := by
  intro t d t' d' hr
  obtain ⟨x, d1, _, h2⟩ := bind_ok_inv hr
  have : set t x = t' := by
    have := h2
    simp only [Dec.pure, Res.ok.injEq] at this
    exact this.1
  rw [← this, h]

theorem Keeps.fieldStructs {τ α β : Type} {get : τ → α} {dec : Dec β} {g : τ → Slice β}
    {set : τ → Slice β → τ} (h : ∀ t x, get (set t x) = get t) :
    Keeps get (Dec.fieldStructs dec g set) := by
  intro t d t' d' hr
  obtain ⟨x, d1, _, h2⟩ := bind_ok_inv hr
  have : set t x = t' := by
    have := h2
    simp only [Dec.pure, Res.ok.injEq] at this
    exact this.1
  rw [← this, h]

theorem Keeps.onlyIf {τ α : Type} {get : τ → α} {c : Prop} [Decidable c] {f : τ → Dec τ}
    (h : Keeps get f) : Keeps get (Dec.onlyIf c f) := by
  intro t d t' d' hr
  unfold Dec.onlyIf at hr
  split at hr
  · exact h t d t' d' hr
  · simp only [Dec.pure, Res.ok.injEq] at hr
    rw [hr.1]

theorem Keeps.absent {τ α : Type} {get : τ → α} {c : Prop} [Decidable c] {f : τ → Dec τ}
    (h : ¬c) : Keeps get (Dec.onlyIf c f) := by
  intro t d t' d' hr
  unfold Dec.onlyIf at hr
  rw [if_neg h] at hr
  simp only [Dec.pure, Res.ok.injEq] at hr
  rw [hr.1]

end Kafka
