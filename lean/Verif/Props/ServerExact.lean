import Verif.Props.Server
import Verif.Props.Flexible
/-!
C94 at flexible versions: not only the reply whose fields are all zero is written in another way than the protocol says, all are.
-/
namespace Kafka.Props
open Protocol (flexible replyPayload Val Ty Fields)

/-- No lengths of 4 bytes begin like the compact ones. -/
theorem not_long_here {n : Nat} (hn : n < 2 ^ 23) {r r' : List Byte} :
    Wire.bigEndian 4 n ++ r ≠ Protocol.uvarint (n + 1) ++ r' := by
  obtain ⟨us, hu⟩ := uvarint_head (n + 1)
  obtain ⟨c, d, hb⟩ := be4 n
  rw [hb, hu]
  intro h
  simp only [List.cons_append, List.nil_append, List.cons.injEq] at h
  obtain ⟨h1, _⟩ := h
  have h1 := congrArg BitVec.toNat h1
  simp only [BitVec.toNat_ofInt, BitVec.toNat_ofNat] at h1
  split at h1 <;> simp at h1 <;> omega

/-- At every flexible version no reply at all (with fewer than 2^23 elements in its arrays and byte strings) is a valid message
and written as the protocol says. -/
theorem C94_flexible_never (a : Api) (v : Int16) (id : Int32) (r : a.resp.T) (hflex : flexible a v = true)
    (hs : Small (a.respVal r) = true) :
    ¬ ((Protocol.response a).Valid true v (a.respVal r) ∧ answer a v id r = replyPayload a v id (a.respVal r)) := by
  rintro ⟨hv, h⟩
  have h0 : 0 ≤ v := by
    unfold flexible at hflex
    cases hf : Protocol.flexibleFrom a with
    | none => rw [hf] at hflex; cases hflex
    | some f =>
      rw [hf] at hflex
      simp at hflex
      rw [Int16.le_iff_toInt_le]
      simp
      omega
  rw [answer_eq, reply_flexible hflex] at h
  have h2 := List.append_cancel_left h
  by_cases hA : a = .ApiVersions
  · subst hA
    rw [← Api.resp_conforms .ApiVersions v h0 (fun h => by cases h), if_pos rfl, List.nil_append] at h2
    obtain ⟨e, k, t⟩ := r
    have hl : k.elems.length < 2 ^ 23 := by
      simpa [Small, short, Api.respVal, Msg.ApiVersionsResponse.val, Protocol.ofStructs] using hs
    simp only [Protocol.response, Protocol.ApiVersionsResponse, Protocol.field, Fields.wire, Protocol.Present, h0, if_true,
      Api.respVal, Msg.ApiVersionsResponse.val, Val.get, List.lookup, Protocol.ofStructs, beq_self_eq_true, String.reduceBEq, Option.getD_some, Protocol.Ty.wire, List.append_assoc,
      Bool.false_eq_true, if_false, List.length_map] at h2
    exact not_long_here hl (List.append_cancel_left h2)
  · rw [if_neg hA] at h2
    by_cases hC : a = .CreateTopics
    · subst hC
      obtain ⟨t, k⟩ := r
      have hl : k.elems.length < 2 ^ 23 := by
        simpa [Small, short, Api.respVal, Msg.CreateTopicsResponse.val, Protocol.ofStructs] using hs
      have h5 : v ≥ 2 := by
        simp [flexible, Protocol.flexibleFrom] at hflex
        rw [ge_iff_le, Int16.le_iff_toInt_le]
        simp
        omega
      replace h2 : Msg.CreateTopicsResponse.wire v ⟨t, k⟩ = 0 :: (Ty.struct (Protocol.response .CreateTopics)).wire true v (Msg.CreateTopicsResponse.val ⟨t, k⟩) := h2
      simp only [Msg.CreateTopicsResponse.wire, Wire.when, Wire.array, Protocol.response, Protocol.CreateTopicsResponse, Protocol.field, Fields.wire, Protocol.Present, h0, h5, if_true,
        Msg.CreateTopicsResponse.val, Val.get, List.lookup, Protocol.ofStructs, beq_self_eq_true, String.reduceBEq, Option.getD_some, Protocol.Ty.wire, List.append_assoc,
        List.length_map] at h2
      have h3 := shift_fixed h2
      rw [← Protocol.len32] at h3
      exact not_long (n := k.elems.length) hl h3
    · rw [← a.resp_conforms v h0 (fun h => absurd h hC)] at h2
      refine shifted hs (Protocol.response a) ?_ hv ?_
      · cases a <;> rfl
      · exact h2
/-- So a reply is written as the protocol says exactly if the version is not flexible (without nil slices where the protocol has no
null, see `C94_nil_fails`). -/
theorem C94_exact (a : Api) (v : Int16) (id : Int32) (r : a.resp.T) (hv : 0 ≤ v) (hfit : a.respLayout.Fits v r) (hfull : a.respFull v r)
    (hs : Small (a.respVal r) = true) :
    ((Protocol.response a).Valid true v (a.respVal r) ∧ answer a v id r = replyPayload a v id (a.respVal r)) ↔ flexible a v = false := by
  constructor
  · intro h
    cases hflex : flexible a v with
    | false => rfl
    | true => exact absurd h (C94_flexible_never a v id r hflex hs)
  · exact fun hflex => C94_partial a v id r hv hfit hflex hfull

/-- A reply that meets the hypotheses: it is written as 17 bytes, where the protocol has 16 at version 4. -/
example : ∃ r : Msg.DeleteTopicsResponse, Small ((Api.DeleteTopics).respVal r) = true ∧ (Api.DeleteTopics).respLayout.Fits 4 r ∧
    (Api.DeleteTopics).respFull 4 r ∧ flexible .DeleteTopics 4 = true ∧
    (answer .DeleteTopics 4 1 r).length = 17 ∧ (replyPayload .DeleteTopics 4 1 ((Api.DeleteTopics).respVal r)).length = 16 := by
  refine ⟨{ Responses := some [{ Name := goString "t" }] }, by decide, ⟨by simp [FitsSlice, Slice.len, Slice.elems], ?_⟩, trivial, by decide, by decide +kernel, by decide +kernel⟩
  intro x hx
  simp only [Slice.elems, Option.getD_some, List.mem_singleton] at hx
  subst hx
  exact ⟨by simp [FitsString, goString]⟩

end Kafka.Props
