import Verif.Props.Decode
import Verif.Protocol.NullLemmas
/-!
C48, exactly: at the versions that are not flexible, null byte strings are all that a method cannot read.
-/
namespace Kafka.Props

open Protocol (Val Fields flexible replyPayload)

/-- Whatever the API: a reply with a null byte string anywhere in it makes the method panic. -/
theorem C48_null_panics (b : Broker) (a : Api) (req : a.req.T) (id : Int32) (x : Val) (d : Decoder)
    (hv : 0 ≤ version b a) (hflex : flexible a (version b a) = false)
    (hx : (Protocol.response a).Valid true (version b a) x)
    (hnull : ¬ (Protocol.response a).Valid false (version b a) x)
    (hd : Holds d (replyPayload a (version b a) id x)) :
    (b.call a req).decode d = .panic := by
  have hct : a = .CreateTopics → version b a < 5 := by
    rintro rfl
    simp only [flexible, Protocol.flexibleFrom, Option.any_some, decide_eq_false_iff_not] at hflex
    exact Int16.lt_iff_toInt_lt.mpr (Int.not_le.mp hflex)
  have e := reply_eq hflex id x
  have h4 : (Wire.int32 id).length = 4 := by rw [Wire.int32, Protocol.bigEndian_length]
  have hr : d.rest = (Protocol.response a).wire false (version b a) x ++ [] := by
    rw [hd.rest, e, List.drop_append_of_le_length (by omega), List.drop_eq_nil_of_le (by omega)]; simp
  rw [C60_panics b a req d (hd.valid (by rw [e]; simp [h4])) hv hct, Fields.message, Protocol.Ty.parse, hr]
  simp only [(Protocol.response a).parse_null _ x (response_distinct a) hx hnull []]
  rfl

/-- At a version that is not flexible, the method returns what is in a reply the protocol allows exactly if no byte
string in it is null. -/
theorem C48_exact (b : Broker) (a : Api) (req : a.req.T) (id : Int32) (x : Val) (d : Decoder)
    (hv : 0 ≤ version b a) (hflex : flexible a (version b a) = false)
    (hx : (Protocol.response a).Valid true (version b a) x)
    (hd : Holds d (replyPayload a (version b a) id x)) :
    (∃ r d', (b.call a req).decode d = .ok r d' ∧ (Protocol.response a).shows (version b a) x (a.respVal r) = true) ↔
      (Protocol.response a).Valid false (version b a) x := by
  constructor
  · rintro ⟨r, d', h, -⟩
    refine Classical.byContradiction fun hnull => ?_
    rw [C48_null_panics b a req id x d hv hflex hx hnull hd] at h
    cases h
  · intro h
    obtain ⟨r, d', h1, _, h2⟩ := C48_partial b a req id x d hv hflex h hd
    exact ⟨r, d', h1, h2⟩

/-- Such replies: a Fetch reply at version 11, with null records. -/
example : (Protocol.response .Fetch).Valid true 11 (sampleFetch none) ∧
    ¬ (Protocol.response .Fetch).Valid false 11 (sampleFetch none) ∧ flexible .Fetch 11 = false ∧
    Holds (given (replyPayload .Fetch 11 5 (sampleFetch none))) (replyPayload .Fetch 11 5 (sampleFetch none)) := by
  refine ⟨sampleFetch_valid _ _ _ (by decide) (by simp) (by simp), ?_, by decide, given_holds _ (by decide +kernel)⟩
  simp [Protocol.response, Protocol.FetchResponse, Protocol.FetchableTopicResponse, Protocol.FetchablePartitionResponse,
    Protocol.field, Protocol.nullable, Fields.Valid, Protocol.Ty.Valid, Protocol.Present, sampleFetch,
    Val.get, List.lookup, goString]
  try decide

end Kafka.Props
