import Verif.Broker.Negotiate
import Verif.Gen.Api
/-!
What version negotiation computes.
-/
namespace Kafka

open Msg (ApiVersionsResponseKey18)

theorem ApiVersion.get_put (av : ApiVersion) (v : Int16) (a b : Api) :
    (av.put v b).get a = if a = b then v else av.get a := by
  cases b <;> cases a <;> rfl

/-- The API with a given key. -/
def Api.ofKey (k : Int16) : Option Api := Api.all.find? (fun a => a.key == k)

theorem Api.ofKey_key (a : Api) : Api.ofKey a.key = some a := by cases a <;> decide

theorem Api.key_inj {a b : Api} (h : a.key = b.key) : a = b := by
  have h1 := Api.ofKey_key a
  rw [h, Api.ofKey_key b] at h1
  exact (Option.some.inj h1).symm

theorem Api.ofKey_eq_some {k : Int16} {a : Api} : Api.ofKey k = some a ↔ a.key = k := by
  constructor
  · intro h
    simpa using List.find?_some h
  · rintro rfl; exact Api.ofKey_key a

theorem Api.ofKey_eq_none {k : Int16} : Api.ofKey k = none ↔ ∀ a : Api, a.key ≠ k := by
  constructor
  · intro h a ha
    rw [← ha, Api.ofKey_key] at h
    simp at h
  · intro h
    cases hk : Api.ofKey k with
    | none => rfl
    | some a => exact absurd (Api.ofKey_eq_some.1 hk) (h a)

/-- The case of the switch an API ought to have. -/
def Api.case (a : Api) : NegotiateCase :=
  { key := a.key, lo := 0, hi := a.maxVersion, assign := fun av v => av.put v a }

theorem negotiateCases_eq : negotiateCases = Api.all.map Api.case := rfl

theorem find_case (k : Int16) :
    negotiateCases.find? (fun c => c.key == k) = (Api.ofKey k).map Api.case := by
  rw [negotiateCases_eq, List.find?_map]
  rfl

/-- The broker's range is not empty and its upper end is a version of this library. -/
def Accepts (k : ApiVersionsResponseKey18) (hi : Int16) : Prop :=
  k.MinVersion ≤ k.MaxVersion ∧ 0 ≤ k.MaxVersion ∧ k.MaxVersion ≤ hi

instance (k : ApiVersionsResponseKey18) (hi : Int16) : Decidable (Accepts k hi) := by
  unfold Accepts; infer_instance

theorem matchVersion_accepts {k : ApiVersionsResponseKey18} {hi : Int16} (h : Accepts k hi)
    (fuel : Nat) : matchVersion (fuel + 1) k 0 hi = some (.ok k.MaxVersion) := by
  unfold matchVersion matchLoop
  rw [if_pos h.1, if_pos h.2]

theorem sub_one_toInt {v m : Int16} (h : m ≤ v) (hm : m ≠ -32768) : (v - 1).toInt = v.toInt - 1 := by
  have h1 := Int16.le_iff_toInt_le.1 h
  have h2 : m.toInt ≠ -32768 := fun hc => hm (Int16.toInt_inj.1 (by simpa using hc))
  have h3 := Int16.le_toInt m
  have h4 := Int16.toInt_lt v
  rw [Int16.toInt_sub]
  show (v.toInt - 1).bmod (2 ^ 16) = _
  rw [Int.bmod_eq_of_le] <;> omega

theorem matchLoop_rejects {k : ApiVersionsResponseKey18} {hi : Int16}
    (h : ¬(0 ≤ k.MaxVersion ∧ k.MaxVersion ≤ hi)) (hm : k.MinVersion ≠ -32768) (n : Nat) :
    ∀ v : Int16, v.toInt - k.MinVersion.toInt < n → ∀ fuel,
      matchLoop k 0 hi (fuel + (n + 1)) v = some (.error ⟨k.ApiKey⟩) := by
  induction n with
  | zero =>
    intro v hv fuel
    unfold matchLoop
    rw [if_neg (by intro hc; have := Int16.le_iff_toInt_le.1 hc; omega)]
  | succ n ih =>
    intro v hv fuel
    show matchLoop k 0 hi ((fuel + (n + 1)) + 1) v = _
    unfold matchLoop
    by_cases hc : v ≥ k.MinVersion
    · rw [if_pos hc, if_neg h]
      apply ih
      rw [sub_one_toInt hc hm]
      omega
    · rw [if_neg hc]

theorem matchLoop_empty {k : ApiVersionsResponseKey18} {hi : Int16}
    (h : ¬ k.MinVersion ≤ k.MaxVersion) (fuel : Nat) :
    matchVersion (fuel + 1) k 0 hi = some (.error ⟨k.ApiKey⟩) := by
  unfold matchVersion matchLoop
  rw [if_neg h]

theorem matchVersion_rejects {k : ApiVersionsResponseKey18} {hi : Int16} (h : ¬ Accepts k hi)
    (hm : k.MinVersion ≠ -32768) (fuel : Nat) :
    matchVersion (fuel + 65537) k 0 hi = some (.error ⟨k.ApiKey⟩) := by
  by_cases hr : k.MinVersion ≤ k.MaxVersion
  · apply matchLoop_rejects (fun hc => h ⟨hr, hc⟩) hm 65536
    have h3 := Int16.le_toInt k.MinVersion
    have h4 := Int16.toInt_lt k.MaxVersion
    omega
  · exact matchLoop_empty hr _

theorem min_le (v : Int16) : (-32768 : Int16) ≤ v := by
  rw [Int16.le_iff_toInt_le]
  exact Int16.le_toInt v

theorem matchLoop_hangs {k : ApiVersionsResponseKey18} {hi : Int16}
    (h : ¬(0 ≤ k.MaxVersion ∧ k.MaxVersion ≤ hi)) (hm : k.MinVersion = -32768) (fuel : Nat) :
    ∀ v : Int16, matchLoop k 0 hi fuel v = none := by
  induction fuel with
  | zero => intro v; rfl
  | succ n ih =>
    intro v
    unfold matchLoop
    rw [if_pos (by rw [hm]; exact min_le v), if_neg h]
    exact ih _

theorem matchVersion_hangs {k : ApiVersionsResponseKey18} {hi : Int16} (h : ¬ Accepts k hi)
    (hm : k.MinVersion = -32768) (fuel : Nat) : matchVersion fuel k 0 hi = none :=
  matchLoop_hangs (fun hc => h ⟨by rw [hm]; exact min_le _, hc⟩) hm fuel _

/-- Every entry for an API this library knows is acceptable. -/
def AllAccepted (ks : List ApiVersionsResponseKey18) : Prop :=
  ∀ k ∈ ks, ∀ a : Api, a.key = k.ApiKey → Accepts k a.maxVersion

/-- The last entry for an API in the list, if any. -/
def lastEntry (ks : List ApiVersionsResponseKey18) (a : Api) : Option ApiVersionsResponseKey18 :=
  ks.reverse.find? (fun k => k.ApiKey == a.key)

theorem lastEntry_cons (k : ApiVersionsResponseKey18) (ks : List ApiVersionsResponseKey18)
    (a : Api) : lastEntry (k :: ks) a =
      (lastEntry ks a).or (if k.ApiKey = a.key then some k else none) := by
  unfold lastEntry
  rw [List.reverse_cons, List.find?_append]
  congr 1
  simp only [List.find?_cons, List.find?_nil]
  by_cases h : k.ApiKey = a.key
  · simp [h]
  · rw [if_neg h, beq_eq_false_iff_ne.2 h]

/-- The version an API ends up with, starting from `v0`. -/
def versionFrom (ks : List ApiVersionsResponseKey18) (a : Api) (v0 : Int16) : Int16 :=
  match lastEntry ks a with
  | none => v0
  | some k => k.MaxVersion

theorem negotiateLoop_cons_unknown {fuel : Nat} {k : ApiVersionsResponseKey18}
    {ks : List ApiVersionsResponseKey18} {av : ApiVersion} (h : Api.ofKey k.ApiKey = none) :
    negotiateLoop fuel (k :: ks) av = negotiateLoop fuel ks av := by
  rw [negotiateLoop, find_case, h]; rfl

theorem negotiateLoop_cons_known {fuel : Nat} {k : ApiVersionsResponseKey18}
    {ks : List ApiVersionsResponseKey18} {av : ApiVersion} {a : Api}
    (h : Api.ofKey k.ApiKey = some a) :
    negotiateLoop fuel (k :: ks) av = match matchVersion fuel k 0 a.maxVersion with
      | none => none
      | some (.error e) => some (.error e)
      | some (.ok v) => negotiateLoop fuel ks (av.put v a) := by
  rw [negotiateLoop, find_case, h]; rfl

theorem negotiateLoop_accepted {ks : List ApiVersionsResponseKey18} (h : AllAccepted ks)
    (fuel : Nat) : ∀ av, ∃ av', negotiateLoop (fuel + 1) ks av = some (.ok av') ∧
      ∀ a, av'.get a = versionFrom ks a (av.get a) := by
  induction ks with
  | nil => intro av; exact ⟨av, rfl, fun a => rfl⟩
  | cons k ks ih =>
    intro av
    have ih := ih (fun k' hk' => h k' (List.mem_cons_of_mem _ hk'))
    cases hk : Api.ofKey k.ApiKey with
    | none =>
      obtain ⟨av', h1, h2⟩ := ih av
      refine ⟨av', by rw [negotiateLoop_cons_unknown hk, h1], fun a => ?_⟩
      rw [h2, versionFrom, versionFrom, lastEntry_cons, if_neg, Option.or_none]
      exact fun hc => Api.ofKey_eq_none.1 hk a hc.symm
    | some b =>
      have hb := Api.ofKey_eq_some.1 hk
      obtain ⟨av', h1, h2⟩ := ih (av.put k.MaxVersion b)
      refine ⟨av', ?_, fun a => ?_⟩
      · rw [negotiateLoop_cons_known hk, matchVersion_accepts (h k (by simp) b hb)]
        exact h1
      · rw [h2, versionFrom, versionFrom, lastEntry_cons, ApiVersion.get_put]
        by_cases hab : a = b
        · subst hab
          rw [if_pos rfl, if_pos hb.symm]
          cases lastEntry ks a <;> rfl
        · rw [if_neg hab, if_neg (fun hc => hab (Api.key_inj (by rw [← hc, hb]))), Option.or_none]

/-- The first entry that is not acceptable, with everything before it acceptable. -/
structure FirstRejected (ks : List ApiVersionsResponseKey18) (k : ApiVersionsResponseKey18) (a : Api) :
    Prop where
  split : ∃ p s, ks = p ++ k :: s ∧ AllAccepted p
  key : a.key = k.ApiKey
  bad : ¬ Accepts k a.maxVersion

theorem accepted_or_rejected (ks : List ApiVersionsResponseKey18) :
    AllAccepted ks ∨ ∃ k a, FirstRejected ks k a := by
  induction ks with
  | nil => left; intro k hk; simp at hk
  | cons k ks ih =>
    by_cases hk : ∀ a : Api, a.key = k.ApiKey → Accepts k a.maxVersion
    · rcases ih with h | ⟨k', a, ⟨p, s, h1, h2⟩, h3, h4⟩
      · left
        intro k' hk'
        rcases List.mem_cons.1 hk' with rfl | h'
        · exact hk
        · exact h k' h'
      · right
        refine ⟨k', a, ⟨k :: p, s, by simp [h1], ?_⟩, h3, h4⟩
        intro k'' hk''
        rcases List.mem_cons.1 hk'' with rfl | h'
        · exact hk
        · exact h2 k'' h'
    · right
      simp only [Classical.not_forall] at hk
      obtain ⟨a, ha, hb⟩ := hk
      exact ⟨k, a, ⟨[], ks, rfl, by intro k hk; simp at hk⟩, ha, hb⟩

theorem negotiateLoop_append {p : List ApiVersionsResponseKey18} (h : AllAccepted p)
    (s : List ApiVersionsResponseKey18) (fuel : Nat) : ∀ av, ∃ av',
      negotiateLoop (fuel + 1) (p ++ s) av = negotiateLoop (fuel + 1) s av' := by
  induction p with
  | nil => intro av; exact ⟨av, rfl⟩
  | cons k ks ih =>
    intro av
    have ih := ih (fun k' hk' => h k' (List.mem_cons_of_mem _ hk'))
    rw [List.cons_append]
    cases hk : Api.ofKey k.ApiKey with
    | none => rw [negotiateLoop_cons_unknown hk]; exact ih av
    | some b =>
      rw [negotiateLoop_cons_known hk,
        matchVersion_accepts (h k (by simp) b (Api.ofKey_eq_some.1 hk))]
      exact ih _

theorem negotiateLoop_rejected {ks : List ApiVersionsResponseKey18} {k : ApiVersionsResponseKey18}
    {a : Api} (h : FirstRejected ks k a) (hm : k.MinVersion ≠ -32768) (fuel : Nat)
    (av : ApiVersion) :
    negotiateLoop (fuel + 65537) ks av = some (.error ⟨k.ApiKey⟩) := by
  obtain ⟨⟨p, s, rfl, hp⟩, hk, hb⟩ := h
  obtain ⟨av', h'⟩ := negotiateLoop_append hp (k :: s) (fuel + 65536) av
  rw [h', negotiateLoop_cons_known (Api.ofKey_eq_some.2 hk), matchVersion_rejects hb hm]

theorem negotiateLoop_hangs {ks : List ApiVersionsResponseKey18} {k : ApiVersionsResponseKey18}
    {a : Api} (h : FirstRejected ks k a) (hm : k.MinVersion = -32768) (fuel : Nat)
    (av : ApiVersion) : negotiateLoop fuel ks av = none := by
  obtain ⟨⟨p, s, rfl, hp⟩, hk, hb⟩ := h
  cases fuel with
  | zero =>
    -- with no iterations allowed the first known key already gives `none`
    induction p generalizing av with
    | nil =>
      rw [List.nil_append, negotiateLoop_cons_known (Api.ofKey_eq_some.2 hk)]; rfl
    | cons k' ks ih =>
      rw [List.cons_append]
      cases hk' : Api.ofKey k'.ApiKey with
      | none =>
        rw [negotiateLoop_cons_unknown hk']
        exact ih av (fun k' hk' => hp k' (List.mem_cons_of_mem _ hk'))
      | some b => rw [negotiateLoop_cons_known hk']; rfl
  | succ fuel =>
    obtain ⟨av', h'⟩ := negotiateLoop_append hp (k :: s) fuel av
    rw [h', negotiateLoop_cons_known (Api.ofKey_eq_some.2 hk), matchVersion_hangs hb hm]

theorem matchLoop_mono {k : ApiVersionsResponseKey18} {lo hi : Int16} {r} (fuel : Nat) :
    ∀ v, matchLoop k lo hi fuel v = some r → ∀ n, matchLoop k lo hi (fuel + n) v = some r := by
  induction fuel with
  | zero => intro v h; simp [matchLoop] at h
  | succ fuel ih =>
    intro v h n
    rw [Nat.succ_add]
    unfold matchLoop at h ⊢
    by_cases h1 : v ≥ k.MinVersion
    · rw [if_pos h1] at h ⊢
      by_cases h2 : k.MaxVersion ≥ lo ∧ k.MaxVersion ≤ hi
      · rw [if_pos h2] at h ⊢; exact h
      · rw [if_neg h2] at h ⊢; exact ih _ h n
    · rw [if_neg h1] at h ⊢; exact h

theorem negotiateLoop_mono {fuel : Nat} {r} (ks : List ApiVersionsResponseKey18) :
    ∀ av, negotiateLoop fuel ks av = some r → ∀ n, negotiateLoop (fuel + n) ks av = some r := by
  induction ks with
  | nil => intro av h n; exact h
  | cons k ks ih =>
    intro av h n
    cases hk : Api.ofKey k.ApiKey with
    | none => rw [negotiateLoop_cons_unknown hk] at h ⊢; exact ih av h n
    | some a =>
      rw [negotiateLoop_cons_known hk] at h ⊢
      cases hv : matchVersion fuel k 0 a.maxVersion with
      | none => simp [hv] at h
      | some x =>
        have : matchVersion (fuel + n) k 0 a.maxVersion = some x := matchLoop_mono _ _ hv n
        rw [this]
        rw [hv] at h
        cases x with
        | error e => exact h
        | ok v => exact ih _ h n

/-- The result does not depend on the bound. -/
theorem Negotiates.unique {ks : Slice ApiVersionsResponseKey18} {r r'}
    (h : Negotiates ks r) (h' : Negotiates ks r') : r = r' := by
  obtain ⟨f, hf⟩ := h
  obtain ⟨f', hf'⟩ := h'
  have h1 := negotiateLoop_mono _ _ hf f'
  have h2 := negotiateLoop_mono _ _ hf' f
  rw [Nat.add_comm] at h2
  rw [h1] at h2
  exact Option.some.inj h2

end Kafka
