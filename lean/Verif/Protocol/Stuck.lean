import Verif.Protocol.ParseLemmas
/-!
Bytes that nothing can be put behind.
-/
namespace Kafka.Protocol

open Ty Parsed

/-- There is no value. -/
def Parsed.Fails {α : Type} (p : Parsed α) : Prop := p = .short ∨ p = .bad

namespace Parsed.Fails
variable {α β : Type}

theorem next {p : Parsed α} (h : p.Fails) (bs : List Byte) (q : α → List Byte → Parsed β) : (p.next bs q).Fails := by
  rcases h with rfl | rfl
  · exact .inl rfl
  · exact .inr rfl

theorem then_ {x : α} {n : Nat} {as bs : List Byte} {q : α → List Byte → Parsed β} (hn : n = as.length) (h : (q x bs).Fails) :
    ((Parsed.ok x n).next (as ++ bs) q).Fails := by
  subst hn
  rcases h with h | h
  · exact .inl (by simp [Parsed.next, h])
  · exact .inr (by simp [Parsed.next, h])

end Parsed.Fails

theorem next_short {α β : Type} {x : α} {n : Nat} {as bs : List Byte} {q : α → List Byte → Parsed β} (hn : n = as.length)
    (h : q x bs = .short) : (Parsed.ok x n).next (as ++ bs) q = .short := by
  subst hn
  simp [Parsed.next, h]

/-- Bytes of which `p` says that there are too few, and which nothing can be put behind. -/
def Stuck {α : Type} (p : List Byte → Parsed α) (bs : List Byte) : Prop := p bs = .short ∧ ∀ tail, (p (bs ++ tail)).Fails

/-- The first byte of a negative length of two bytes. -/
theorem stuck16 {α : Type} {p : List Byte → Parsed α} {q : Int16 → List Byte → Parsed α}
    (hp : ∀ bs, p bs = (parse16 bs).next bs q) (hq : ∀ n bs, n.toInt < -1 → q n bs = .bad) : Stuck p [0x80] := by
  refine ⟨by rw [hp]; rfl, fun tail => ?_⟩
  rw [hp]
  cases tail with
  | nil => exact .inl rfl
  | cons y tail =>
    refine .inr ?_
    have h : ∀ y : Byte, (Int16.ofNat (unsigned [0x80, y])).toInt < -1 := by decide +kernel
    have e : parse16 ([0x80] ++ y :: tail) = .ok (Int16.ofNat (unsigned [0x80, y])) 2 := by
      simp [parse16, Parsed.fixed]
    rw [e]
    simp only [Parsed.next]
    rw [hq _ _ (h y)]

/-- Three bytes of a negative length of four bytes. -/
theorem stuck32 {α : Type} {p : List Byte → Parsed α} {q : Int32 → List Byte → Parsed α}
    (hp : ∀ bs, p bs = (parse32 bs).next bs q) (hq : ∀ n bs, n.toInt < -1 → q n bs = .bad) : Stuck p [0x80, 0, 0] := by
  refine ⟨by rw [hp]; rfl, fun tail => ?_⟩
  rw [hp]
  cases tail with
  | nil => exact .inl rfl
  | cons y tail =>
    refine .inr ?_
    have h : ∀ y : Byte, (Int32.ofNat (unsigned [0x80, 0, 0, y])).toInt < -1 := by decide +kernel
    have e : parse32 ([0x80, 0, 0] ++ y :: tail) = .ok (Int32.ofNat (unsigned [0x80, 0, 0, y])) 4 := by
      simp [parse32, Parsed.fixed]
    rw [e]
    simp only [Parsed.next]
    rw [hq _ _ (h y)]

mutual
/-- Where there is a length that can be bad, there are such bytes. -/
theorem Ty.stuck_parse (v : Int16) : ∀ (t : Ty), t.safe v = false → ∃ bs, bs.length ≤ t.weight ∧ Stuck (t.parse v) bs
  | .bool, h => by simp [Ty.safe] at h
  | .int8, h => by simp [Ty.safe] at h
  | .int16, h => by simp [Ty.safe] at h
  | .int32, h => by simp [Ty.safe] at h
  | .int64, h => by simp [Ty.safe] at h
  | .string, _ => ⟨[0x80], by simp [Ty.weight], stuck16 (fun bs => by rw [Ty.parse]) fun n bs hn => by
      rw [if_neg (by omega), if_pos (by omega)]⟩
  | .bytes, _ => ⟨[0x80, 0, 0], by simp [Ty.weight], stuck32 (fun bs => by rw [Ty.parse]) fun n bs hn => by
      rw [if_pos (by omega)]⟩
  | .array t, h => by
    rw [Ty.safe] at h
    cases hs : t.isStruct with
    | false =>
      refine ⟨[0x80, 0, 0], by simp [Ty.weight]; omega, stuck32 (fun bs => by rw [Ty.parse]) fun n bs hn => ?_⟩
      rw [if_neg (by simp [hs]; omega), if_pos (by omega)]
    | true =>
      rw [hs, Bool.true_and] at h
      obtain ⟨bs, hw, h1, h2⟩ := t.stuck_parse v h
      refine ⟨Wire.int32 1 ++ bs, by simpa [Ty.weight, Wire.int32, Wire.bigEndian, Nat.add_comm] using hw, ?_, fun tail => ?_⟩
      · rw [Ty.parse]
        simp only [parse32_wire]
        refine next_short rfl ?_
        rw [if_neg (by rw [hs]; decide), if_neg (by decide)]
        show (times _ 1 _).next _ _ = _
        simp only [times, h1, next]
      · rw [Ty.parse, List.append_assoc]
        simp only [parse32_wire]
        refine .then_ rfl ?_
        rw [if_neg (by rw [hs]; decide), if_neg (by decide)]
        show ((times _ 1 _).next _ _).Fails
        exact ((h2 tail).next _ _).next _ _
  | .struct fs, h => by
    rw [Ty.safe] at h
    obtain ⟨bs, hw, h1, h2⟩ := fs.stuck_parse v h
    refine ⟨bs, by simpa [Ty.weight] using hw, ?_, fun tail => ?_⟩
    · rw [Ty.parse]
      simp only [h1, next]
    · rw [Ty.parse]
      exact (h2 tail).next _ _

theorem Fields.stuck_parse (v : Int16) : ∀ (fs : Fields), fs.safe v = false →
    ∃ bs, bs.length ≤ fs.weight ∧ Stuck (fs.parse v) bs
  | .done, h => by simp [Fields.safe] at h
  | .cons name s up nf t rest, h => by
    rw [Fields.safe] at h
    by_cases hp : Present v s up
    · cases ht : t.safe v with
      | false =>
        obtain ⟨bs, hw, h1, h2⟩ := t.stuck_parse v ht
        refine ⟨bs, by simp [Fields.weight]; omega, ?_, fun tail => ?_⟩
        · rw [Fields.parse]
          simp only [if_pos hp, h1, next]
        · rw [Fields.parse]
          simp only [if_pos hp]
          exact (h2 tail).next _ _
      | true =>
        have hr : rest.safe v = false := by simpa [ht] using h
        obtain ⟨x, as, hw', h'⟩ := t.parse_some v
        obtain ⟨bs, hw, h1, h2⟩ := rest.stuck_parse v hr
        refine ⟨as ++ bs, by simp [Fields.weight]; omega, ?_, fun tail => ?_⟩
        · rw [Fields.parse]
          simp only [if_pos hp, h']
          refine next_short rfl ?_
          simp only [h1, next]
        · rw [Fields.parse]
          simp only [if_pos hp, List.append_assoc, h']
          exact .then_ rfl ((h2 tail).next _ _)
    · have hr : rest.safe v = false := by simpa [hp] using h
      obtain ⟨bs, hw, h1, h2⟩ := rest.stuck_parse v hr
      refine ⟨bs, by simp [Fields.weight]; omega, ?_, fun tail => ?_⟩
      · rw [Fields.parse]
        simp only [if_neg hp, h1]
      · rw [Fields.parse]
        simp only [if_neg hp]
        exact h2 tail
end

end Kafka.Protocol
