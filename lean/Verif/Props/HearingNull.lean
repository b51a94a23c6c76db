import Verif.Props.Hearing
import Verif.Props.Null
/-!
C95, exactly: at the versions that are not flexible, null byte strings are all that `Decode` of a request cannot read (OffsetCommit
version 1 apart).
-/
namespace Kafka.Props

open Protocol (flexible requestPayload requestHeaderVersion Val Fields)

/-- Whatever the API: a request of the protocol with a null byte string anywhere in it makes `Decode` panic. -/
theorem C95_null_panics (a : Api) (v : Int16) (id : Int32) (client : GoString) (x : Val) (d : Decoder) (tail : List Byte)
    (hv : 0 ≤ v) (hflex : flexible a v = false) (hcommit : a = .OffsetCommit → v ≠ 1) (hc : client.length < 2 ^ 15)
    (hx : (Protocol.request a).Valid true v x) (hnull : ¬ (Protocol.request a).Valid false v x) (hd : d.Valid)
    (hr : d.rest = requestPayload a v id client x ++ tail) :
    ∃ h d1, Msg.RequestHeader.decode (requestHeaderVersion a v) {} d = .ok h d1 ∧ a.req.decode v a.req.zero d1 = .panic := by
  have hw := header_version hflex
  have hw0 : 0 ≤ requestHeaderVersion a v := by rcases hw with h | h <;> rw [h] <;> decide
  have hw2 : Protocol.tags (requestHeaderVersion a v = 2) = [] := by rcases hw with h | h <;> rw [h] <;> decide
  rw [requestPayload, hw2, List.append_nil, hflex, Protocol.Ty.wire, if_neg (by decide), List.append_nil, List.append_assoc] at hr
  have hh := Msg.RequestHeader.decodes hw0 (.struct [("RequestApiKey", .int16 (Int16.ofNat a.protocolKey)),
    ("RequestApiVersion", .int16 v), ("CorrelationId", .int32 id), ("ClientId", .str (some client))])
    (by simp [Protocol.RequestHeader, Protocol.field, Protocol.nullable, Fields.Valid, Protocol.Ty.Valid, Val.get, List.lookup, hc]) {}
  have h1 := hh.1 d hd _ hr
  have hl := congrArg List.length hr
  rw [List.length_append, List.length_append] at hl
  have hd1 := Decoder.skip_valid hd (n := (Fields.wire false (requestHeaderVersion a v) Protocol.RequestHeader
    (.struct [("RequestApiKey", .int16 (Int16.ofNat a.protocolKey)),
    ("RequestApiVersion", .int16 v), ("CorrelationId", .int32 id), ("ClientId", .str (some client))])).length) (by omega)
  have hr1 := (Decoder.skip_rest hd _).trans ((congrArg _ hr).trans (List.drop_left ..))
  refine ⟨_, _, h1, (parses_panic (a.req_parses v hv hcommit) _ hd1).2 ?_⟩
  rw [hr1, Fields.message, Protocol.Ty.parse]
  simp only [(Protocol.request a).parse_null _ x (request_distinct a) hx hnull tail]
  rfl

/-- A request that the protocol allows is understood exactly if no byte string in it is null. -/
theorem C95_exact (a : Api) (v : Int16) (id : Int32) (client : GoString) (x : Val) (d : Decoder) (tail : List Byte)
    (hv : 0 ≤ v) (hflex : flexible a v = false) (hcommit : a = .OffsetCommit → v ≠ 1) (hc : client.length < 2 ^ 15)
    (hx : (Protocol.request a).Valid true v x) (hd : d.Valid) (hr : d.rest = requestPayload a v id client x ++ tail) :
    Heard a v id client x d tail ↔ (Protocol.request a).Valid false v x := by
  constructor
  · rintro ⟨h, d1, r, d2, h1, -, -, -, -, h2, -⟩
    refine Classical.byContradiction fun hnull => ?_
    obtain ⟨h', d1', h1', h2'⟩ := C95_null_panics a v id client x d tail hv hflex hcommit hc hx hnull hd hr
    rw [h1] at h1'
    cases h1'
    rw [h2] at h2'
    cases h2'
  · exact fun h => C95_partial a v id client x d tail hv hflex hcommit hc h hd hr

/-- Such requests: a Produce request at version 3, with null records. -/
example : (Protocol.request .Produce).Valid true 3 (askedProduce none) ∧ ¬ (Protocol.request .Produce).Valid false 3 (askedProduce none) ∧
    flexible .Produce 3 = false := by
  refine ⟨askedProduce_valid _ _ _ (by simp) (by simp) (by decide), ?_, by decide⟩
  simp [Protocol.request, Protocol.ProduceRequest, Protocol.TopicProduceData, Protocol.PartitionProduceData,
    Protocol.field, Protocol.nullable, Fields.Valid, Protocol.Ty.Valid, Protocol.Present, askedProduce,
    Val.get, List.lookup, goString]
  try decide

end Kafka.Props
