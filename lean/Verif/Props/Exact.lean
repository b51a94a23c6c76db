import Verif.Props.Broker
import Verif.Props.Bytes
import Verif.Message.Gate
/-!
Where the exact boundary of C02, C03, C07 and C22 lies.
-/
namespace Kafka.Props

open Kafka Msg

/-- The bytes of a value that round-trips are those written to a new encoder. -/
theorem RoundTrip.bytes {α : Type} {put : Encoder → Encoder} {get : Dec α} {bs : List Byte} {a : α} (h : RoundTrip put get bs a) :
    bytesOf put = bs := by
  have := (h.writes (newEncoder fun _ => none) ⟨rfl, fun _ => rfl⟩).2
  simpa [newEncoder, bytesOf] using this

theorem RoundTrip.read {α : Type} {put : Encoder → Encoder} {get : Dec α} {bs : List Byte} {a : α} (h : RoundTrip put get bs a)
    (hl : bs.length < 2 ^ 62) : ∃ d', get (newDecoder bs bs.length) = .ok a d' :=
  ⟨_, h.reads _ (newDecoder_valid hl) [] (by rw [newDecoder_rest, List.append_nil])⟩

/-- A string round-trips exactly if it has at most 32767 bytes. -/
theorem C02_exact (s : GoString) (hs : s.length < 2 ^ 61) :
    (∃ bs, RoundTrip (·.putString s) Dec.string bs s) ↔ s.length ≤ 32767 := by
  constructor
  · rintro ⟨bs, h⟩
    have hb := h.bytes
    have hw : bs = Wire.string s := by rw [← hb]; exact (emits_string s).bytesOf
    have hl : bs.length < 2 ^ 62 := by
      rw [hw, Wire.string, List.length_append]
      have : (Wire.int16 (Int16.ofNat s.length)).length = 2 := rfl
      omega
    obtain ⟨d', h1⟩ := h.read hl
    by_cases hc : s.length ≤ 32767
    · exact hc
    · exact absurd h1 (C02_fails s (by omega) _ (newDecoder_valid hl) (by rw [newDecoder_rest, hb]) d')
  · intro h
    exact ⟨_, C02_string_partial s (by omega)⟩

/-- A `*string` round-trips exactly if it is not nil and has at most 32767 bytes. -/
theorem C03_exact (s : Option GoString) (hs : ∀ t, s = some t → t.length < 2 ^ 61) :
    (∃ bs, RoundTrip (·.putNullableString s) Dec.nullableString bs s) ↔ ∃ t, s = some t ∧ t.length ≤ 32767 := by
  constructor
  · rintro ⟨bs, h⟩
    cases s with
    | none =>
      have hl : bs.length < 2 ^ 62 := by
        rw [← h.bytes]
        decide
      obtain ⟨d', h1⟩ := h.read hl
      exact absurd h1 (C03_never_nil _ _)
    | some t =>
      refine ⟨t, rfl, (C02_exact t (hs t rfl)).1 ⟨bs, h.writes, fun d hd tail hr => ?_⟩⟩
      have h1 := h.reads d hd tail hr
      obtain ⟨a, d1, h2, h3⟩ := bind_ok_inv h1
      simp only [Dec.pure, Res.ok.injEq, Option.some.injEq] at h3
      rw [h2, h3.1, h3.2]
  · rintro ⟨t, rfl, h⟩
    exact ⟨_, C03_nullableString_partial t (by omega)⟩

theorem varString_utf8 {d d' : Decoder} {s : GoString} (h : Dec.varString d = .ok s d') : ValidUtf8 s := by
  obtain ⟨n, d1, _, h⟩ := bind_ok_inv h
  obtain ⟨_, d2, _, h⟩ := bind_ok_inv h
  obtain ⟨t, d3, h1, h⟩ := bind_ok_inv h
  obtain ⟨_, d4, _, h⟩ := bind_ok_inv h
  simp only [Dec.pure, Res.ok.injEq] at h
  obtain ⟨rfl, _⟩ := h
  unfold Dec.runeLoop Dec.expr at h1
  split at h1
  · simp at h1
  · rename_i a ha
    simp only [Res.ok.injEq] at h1
    obtain ⟨rfl, _⟩ := h1
    split at ha
    · simp only [Option.some.injEq] at ha
      exact ⟨[], ha.symm⟩
    · obtain ⟨b, _, rfl⟩ := Option.map_eq_some_iff.1 ha
      exact valid_sanitize b

theorem encodeRune_le (r : Nat) : (encodeRune r).length ≤ 4 := by
  unfold encodeRune
  dsimp only
  repeat' split
  all_goals first | (simp; done) | (split <;> simp)

theorem runes_le (s : GoString) : (runes s).length ≤ s.length := by
  have h : ∀ fuel s, (runesAux fuel s).length ≤ fuel := by
    intro fuel
    induction fuel with
    | zero => intro s; simp [runesAux]
    | succ fuel ih =>
      intro s
      cases s with
      | nil => simp [runesAux]
      | cons b s =>
        unfold runesAux
        have := ih ((b :: s).drop (decodeRune (b :: s)).2)
        simp only [List.length_cons]
        omega
  exact h _ _

theorem flatMap_le {α β : Type} (f : α → List β) (k : Nat) (h : ∀ a, (f a).length ≤ k) (l : List α) :
    (l.flatMap f).length ≤ k * l.length := by
  induction l with
  | nil => simp
  | cons a l ih =>
    have := h a
    rw [List.flatMap_cons, List.length_append, List.length_cons, Nat.mul_succ]
    omega

/-- A string round-trips with the variable-length form exactly if it is valid UTF-8. -/
theorem C07_exact (s : GoString) (hs : s.length < 2 ^ 59) :
    (∃ bs, RoundTrip (·.putVarString s) Dec.varString bs s) ↔ ValidUtf8 s := by
  constructor
  · rintro ⟨bs, h⟩
    have hb := h.bytes
    rw [(pours_varString_any s).bytesOf] at hb
    have hl : bs.length < 2 ^ 62 := by
      have h1 : (sanitize s).length ≤ 4 * s.length :=
        Nat.le_trans (flatMap_le _ 4 encodeRune_le _) (Nat.mul_le_mul_left _ (runes_le s))
      have h2 : (Wire.varInt (Int64.ofNat s.length)).length ≤ 10 := (C06_varInt _).2
      rw [← hb, List.length_append]
      omega
    obtain ⟨d', h1⟩ := h.read hl
    exact varString_utf8 h1
  · intro h
    exact ⟨_, C07_varString_partial s (by omega) h⟩

/-- The negotiation succeeds exactly if of every API known the broker's highest version is common to both. -/
theorem C22_exact (ks : Slice ApiVersionsResponseKey18) :
    (∃ av, Negotiates ks (.ok av)) ↔
      ∀ k ∈ ks.elems, ∀ a : Api, k.ApiKey.toInt = a.protocolKey → Common k a k.MaxVersion := by
  constructor
  · rintro ⟨av, h⟩ k hk a ha
    exact (accepts_iff k a).1 (negotiates_accepted h k hk a (by rw [← Int16.toInt_inj, ha]; cases a <;> rfl))
  · intro h
    exact C22_list_partial ks fun k hk a ha => ⟨(h k hk a ha).2.2.2, _, h k hk a ha⟩

end Kafka.Props
