import Verif.Protocol.Conform
import Verif.Protocol.Unique
import Verif.Props.Broker
/-!
Properties C47 and C48: the requests of the 48 API methods and the replies they accept, against the
description of the Kafka 2.4 protocol in `Verif.Protocol` (schemas of all messages, headers, framing).

`a.reqVal req` and `a.respVal resp` are the Go structures as values of the protocol, field by field and by name.
-/
namespace Kafka.Props

open Protocol (flexible requestFrame requestPayload replyPayload Val Fields)

/-! ### C47 -/

/-- The full claim: every request whose lengths can be represented is a valid message of the protocol at the
negotiated version, and what is written is that message with the protocol's header and length. -/
def C47_statement : Prop :=
  ∀ (b : Broker) (a : Api) (req : a.req.T) (id : Int32),
    0 ≤ version b a → (version b a).toInt ≤ a.protocolMax → a.reqLayout.Fits (version b a) req →
    (Protocol.request a).Valid true (version b a) (a.reqVal req) ∧
      written b a req id = requestFrame a (version b a) id b.config.clientID (a.reqVal req)

theorem request_header {a : Api} {v : Int16} (hf : flexible a v = false) (hc : ¬ (a = .ControlledShutdown ∧ v = 0)) :
    Protocol.requestHeaderVersion a v = 1 := by
  simp [Protocol.requestHeaderVersion, hf, hc]

theorem key_protocol (a : Api) : a.key = Int16.ofNat a.protocolKey := by cases a <;> rfl

theorem payload_eq (b : Broker) (a : Api) (id : Int32) (x : Val)
    (hflex : flexible a (version b a) = false) (hshut : ¬ (a = .ControlledShutdown ∧ version b a = 0)) :
    requestPayload a (version b a) id b.config.clientID x =
      Wire.requestPayload a.key (version b a) id b.config.clientID ((Protocol.request a).wire false (version b a) x) := by
  have hh := Msg.RequestHeader.conforms (v := 1) (by decide)
    (requestHeader (Int16.ofNat a.protocolKey) (version b a) id b.config.clientID)
  unfold requestPayload
  rw [request_header hflex hshut, hflex, Protocol.Ty.wire]
  rw [← key_protocol a] at hh ⊢
  exact congrArg (· ++ _) ((congrArg (· ++ _) hh).trans (List.append_nil _)) |>.trans
    (by rw [if_neg (by decide), List.append_nil]; rfl)

/-- True at all versions that are not flexible, except OffsetCommit version 1 and ControlledShutdown version
0, and provided no slice of scalars is nil where the protocol has no null.  (Flexible versions, these two and
nil slices are what is missing; see `C47_flexible_fails` to `C47_nil_fails`.) -/
theorem C47_partial (b : Broker) (a : Api) (req : a.req.T) (id : Int32)
    (hv : 0 ≤ version b a) (hfit : a.reqLayout.Fits (version b a) req)
    (hflex : flexible a (version b a) = false) (hcommit : a = .OffsetCommit → version b a ≠ 1)
    (hshut : ¬ (a = .ControlledShutdown ∧ version b a = 0)) (hfull : a.reqFull (version b a) req) :
    (Protocol.request a).Valid true (version b a) (a.reqVal req) ∧
      written b a req id = requestFrame a (version b a) id b.config.clientID (a.reqVal req) := by
  refine ⟨a.req_valid _ hv hcommit req hfit hfull, ?_⟩
  rw [requestFrame, payload_eq b a id _ hflex hshut, a.req_conforms _ hv hcommit req, Protocol.len32]
  exact (call_emits b a req id).bytesOf

/-- An OffsetFetch request at version 3 meets the hypotheses, and is 50 bytes long. -/
example : ∃ (b : Broker) (req : Msg.OffsetFetchRequest),
    version b .OffsetFetch = 3 ∧ (Api.OffsetFetch).reqLayout.Fits 3 req ∧ flexible .OffsetFetch 3 = false ∧
      (Api.OffsetFetch).reqFull 3 req ∧ (written b .OffsetFetch req 1).length = 50 := by
  refine ⟨{ apiVersion := { OffsetFetch := 3 }, config := { clientID := goString "client" } },
    { GroupId := goString "group",
      Topics := some [{ Name := goString "topic", PartitionIndexes := some [1, 2] }] }, rfl, ?_, by decide, ?_, by decide⟩
  · constructor
    · simp [FitsString, goString]
    · refine ⟨by simp [FitsSlice, Slice.len, Slice.elems], ?_⟩
      intro x hx
      simp only [Slice.elems, Option.getD_some, List.mem_singleton] at hx
      subst hx
      constructor
      · simp [FitsString, goString]
      · simp [FitsSlice, Slice.len, Slice.elems]
  · constructor
    intro x hx
    simp only [Slice.elems, Option.getD_some, List.mem_singleton] at hx
    subst hx
    exact ⟨by simp [Slice.NotNil]⟩

/-- What a valid message of the protocol must be if a call has written it. -/
theorem body_of_frame {b : Broker} {a : Api} {req : a.req.T} {id : Int32} {x : Val}
    (hflex : flexible a (version b a) = false) (hshut : ¬ (a = .ControlledShutdown ∧ version b a = 0))
    (h : written b a req id = requestFrame a (version b a) id b.config.clientID x) :
    body b a req = (Protocol.request a).wire false (version b a) x := by
  rw [written, (call_emits b a req id).bytesOf, requestFrame, payload_eq b a id x hflex hshut, ← body_eq b a req] at h
  have h1 := (List.append_inj h (by rw [Wire.int32, Protocol.bigEndian_length, Protocol.bigEndian_length])).2
  exact List.append_cancel_left h1

theorem flexible_body {b : Broker} {a : Api} {req : a.req.T} {id : Int32} {x : Val}
    (hflex : flexible a (version b a) = true)
    (h : written b a req id = requestFrame a (version b a) id b.config.clientID x) :
    body b a req = 0 :: (Protocol.Ty.struct (Protocol.request a)).wire true (version b a) x := by
  have hh : Protocol.requestHeaderVersion a (version b a) = 2 := by simp [Protocol.requestHeaderVersion, hflex]
  have hw : (Protocol.RequestHeader.wire false 2 (.struct [("RequestApiKey", .int16 (Int16.ofNat a.protocolKey)),
      ("RequestApiVersion", .int16 (version b a)), ("CorrelationId", .int32 id),
      ("ClientId", .str (some b.config.clientID))])) = _ :=
    Msg.RequestHeader.conforms (v := 2) (by decide)
      (requestHeader (Int16.ofNat a.protocolKey) (version b a) id b.config.clientID)
  rw [written, (call_emits b a req id).bytesOf, ← body_eq b a req, requestFrame, requestPayload, hh, hflex, hw,
    header_wire, ← key_protocol] at h
  have h1 := (List.append_inj h (by rw [Wire.int32, Protocol.bigEndian_length, Protocol.bigEndian_length])).2
  rw [Wire.requestPayload, List.append_assoc _ (Protocol.tags _)] at h1
  exact List.append_cancel_left h1

theorem flexible_version {a : Api} {v : Int16} (hflex : flexible a v = true) (hmax : v.toInt ≤ a.protocolMax) :
    ∃ f, Protocol.flexibleFrom a = some f ∧ v = Int16.ofInt a.protocolMax := by
  have hv : ∀ f, Protocol.flexibleFrom a = some f → f = a.protocolMax := by cases a <;> simp [Protocol.flexibleFrom, Api.protocolMax]
  obtain ⟨f, hf, hf'⟩ : ∃ f, Protocol.flexibleFrom a = some f ∧ (f : Int) ≤ v.toInt := by
    unfold flexible at hflex
    cases hc : Protocol.flexibleFrom a with
    | none => rw [hc] at hflex; simp at hflex
    | some f => rw [hc] at hflex; exact ⟨f, rfl, by simpa using hflex⟩
  have hv1 : v.toInt = a.protocolMax := by have := hv f hf; omega
  have hv2 : v = Int16.ofInt a.protocolMax := by rw [← hv1]; simp
  exact ⟨f, hf, hv2⟩

/-- At every flexible version, that is at the highest version of 24 of the 48 APIs, the request whose fields
are all zero is not written as the protocol says. -/
theorem C47_flexible_fails (b : Broker) (a : Api) (hflex : flexible a (version b a) = true)
    (hmax : (version b a).toInt ≤ a.protocolMax) (id : Int32) :
    written b a a.req.zero id ≠ requestFrame a (version b a) id b.config.clientID (a.reqVal a.req.zero) := by
  intro h
  have h2 := flexible_body hflex h
  rw [body_eq] at h2
  clear h
  revert h2 hflex hmax
  generalize version b a = v
  intro hflex hmax h2
  obtain ⟨f, hf, rfl⟩ := flexible_version hflex hmax
  cases a <;> first | (simp [Protocol.flexibleFrom] at hf; done) | (exact absurd h2 (by decide +kernel))

/-- Half of the APIs have a flexible version that the client claims. -/
example : (flexible .Metadata 9 = true ∧ (Api.Metadata).protocolMax = 9) ∧
    (flexible .ApiVersions 3 = true ∧ (Api.ApiVersions).protocolMax = 3) := by decide

/-- The partitions of an OffsetCommit request at version 1 lack the commit timestamp: this request, which the
client writes, is no message of the protocol. -/
theorem C47_commit_fails (b : Broker) (hv : version b .OffsetCommit = 1) (id : Int32) (x : Val)
    (hx : (Protocol.request .OffsetCommit).Valid true 1 x) :
    let req : Msg.OffsetCommitRequest :=
      { GroupId := goString "g", Topics := some [{ Name := goString "t", Partitions := some [{ CommittedOffset := 5 }] }] }
    written b .OffsetCommit req id ≠ requestFrame .OffsetCommit 1 id b.config.clientID x := by
  intro req h
  rw [← hv] at h
  have h1 := body_of_frame (by rw [hv]; decide) (by simp) h
  replace h1 := (body_eq b .OffsetCommit req).symm.trans h1
  rw [hv] at h1
  -- with enough bytes after it, the request would be read as this one, which is longer
  let y : Val := .struct [("GroupId", .str (some (goString "g"))), ("GenerationId", .int32 0), ("MemberId", .str (some [])),
    ("Topics", .arr (some [.struct [("Name", .str (some (goString "t"))),
      ("Partitions", .arr (some [.struct [("PartitionIndex", .int32 0), ("CommittedOffset", .int64 5),
        ("CommitTimestamp", .int64 0), ("CommittedMetadata", .str (some []))]]))]]))]
  have hy : (Protocol.request .OffsetCommit).Valid true 1 y := by
    show Fields.Valid true 1 Protocol.OffsetCommitRequest y
    simp [Protocol.OffsetCommitRequest, Protocol.OffsetCommitRequestTopic, Protocol.OffsetCommitRequestPartition,
      Protocol.field, Protocol.until_, Protocol.nullable, Fields.Valid, Protocol.Ty.Valid, Protocol.Present, y,
      Val.get, List.lookup, goString]
  have h2 : (Protocol.request .OffsetCommit).wire false 1 x ++ List.replicate 8 0 =
      (Protocol.request .OffsetCommit).wire false 1 y ++ [] := by
    rw [← h1]; decide +kernel
  have h3 := (Protocol.Fields.unique true 1 _ x y _ _ hx hy h2).2
  exact absurd h3 (by decide)

/-- At version 0 a ControlledShutdown request must not have a client id; it always has one. -/
theorem C47_shutdown_fails (b : Broker) (hv : version b .ControlledShutdown = 0)
    (req : Msg.ControlledShutdownRequest) (id : Int32) :
    written b .ControlledShutdown req id ≠
      requestFrame .ControlledShutdown 0 id b.config.clientID ((Api.ControlledShutdown).reqVal req) := by
  intro h
  have h1 := congrArg List.length ((call_emits b .ControlledShutdown req id).bytesOf.symm.trans h)
  have hh : Protocol.requestHeaderVersion .ControlledShutdown 0 = 0 := by decide
  have hf : flexible .ControlledShutdown 0 = false := by decide
  have hw : (Protocol.RequestHeader.wire false 0 (.struct [("RequestApiKey",
      .int16 (Int16.ofNat (Api.ControlledShutdown).protocolKey)), ("RequestApiVersion", .int16 0), ("CorrelationId", .int32 id),
      ("ClientId", .str (some b.config.clientID))])) = _ :=
    Msg.RequestHeader.conforms (v := 0) (by decide)
      (requestHeader (Int16.ofNat (Api.ControlledShutdown).protocolKey) 0 id b.config.clientID)
  have hc := (Api.ControlledShutdown).req_conforms 0 (by decide) (by simp) req
  rw [requestFrame, requestPayload, hh, hf, hw, Protocol.Ty.wire,
    hc] at h1
  have hv' : b.apiVersion.get .ControlledShutdown = 0 := hv
  rw [hv'] at h1
  simp [Wire.frame, Wire.requestPayload, Msg.RequestHeader.wire, Wire.string, Wire.int16, Wire.int32, Wire.when,
    Protocol.bigEndian_length, Protocol.tags] at h1
  omega

/-- A DeleteTopics request without topics, as Go makes it, is written with a null array, which is no message
of the protocol. -/
theorem C47_nil_fails (b : Broker) (hv : 0 ≤ version b .DeleteTopics) (hflex : flexible .DeleteTopics (version b .DeleteTopics) = false)
    (t : Int32) (id : Int32) (x : Val) (hx : (Protocol.request .DeleteTopics).Valid true (version b .DeleteTopics) x) :
    written b .DeleteTopics ({ TimeoutMs := t } : Msg.DeleteTopicsRequest) id ≠
      requestFrame .DeleteTopics (version b .DeleteTopics) id b.config.clientID x := by
  intro h
  have h1 := body_of_frame hflex (by simp) h
  replace h1 := (body_eq b .DeleteTopics { TimeoutMs := t }).symm.trans h1
  revert h1 hx hv
  generalize version b .DeleteTopics = v
  intro hv hx h1
  have hx : Fields.Valid true v Protocol.DeleteTopicsRequest x := hx
  have h1 : Msg.DeleteTopicsRequest.wire v { TimeoutMs := t } = Fields.wire false v Protocol.DeleteTopicsRequest x := h1
  have h2 := hx.head (show Protocol.Present v 0 none from hv)
  simp only [Protocol.DeleteTopicsRequest, Protocol.field, Fields.wire, Protocol.Present, hv, if_true] at h1
  revert h1 h2
  generalize x.get "TopicNames" = y
  intro h2 h1
  cases y with
  | arr s =>
    cases s with
    | none => simp [Protocol.Ty.Valid] at h2
    | some l =>
      rw [Protocol.Ty.Valid] at h2
      rw [Msg.DeleteTopicsRequest.wire, Protocol.Ty.wire] at h1
      simp only [Wire.stringArray, Wire.nullableArray, Bool.false_eq_true, if_false, List.append_assoc] at h1
      have h3 := (List.append_inj h1 (by rw [Wire.int32, Protocol.bigEndian_length, Protocol.bigEndian_length])).1
      have h4 := Protocol.len32_inj (i := (-1 : Int32).toInt) (by decide) (by decide) (by omega) (by omega) h3
      have h5 : (-1 : Int32).toInt = -1 := by decide
      omega
  | _ => simp only [Protocol.Ty.Valid] at h2

/-- The full claim is false. -/
theorem C47_fails : ¬ C47_statement := by
  intro h
  have h1 := h { apiVersion := { ListGroups := 3 }, config := {} } .ListGroups (Api.ListGroups).req.zero 0
    (by decide) (by decide) trivial
  exact C47_flexible_fails _ .ListGroups (by decide) (by decide) 0 h1.2

/-! ### C48 -/

/-- The decoder holds the reply `payload` and stands behind its id: what the connection gives to the method
(`C32_reply`).  The bytes behind the reply are arbitrary. -/
structure Holds (d : Decoder) (payload : List Byte) : Prop where
  bytes : payload <+: d.raw
  length : d.length = payload.length
  offset : d.offset = 4
  small : d.raw.length < 2 ^ 62

theorem Holds.valid {d : Decoder} {payload : List Byte} (h : Holds d payload) (h4 : 4 ≤ payload.length) : d.Valid :=
  ⟨by rw [h.offset]; decide, by rw [h.offset, h.length]; omega, by
    have h1 := h.bytes.length_le
    rw [h.length]
    omega, h.small⟩

theorem Holds.rest {d : Decoder} {payload : List Byte} (h : Holds d payload) : d.rest = payload.drop 4 := by
  obtain ⟨tail, ht⟩ := h.bytes
  rw [Decoder.rest, h.length, h.offset, ← ht]
  simp

/-- The full claim: from every reply the protocol allows at the negotiated version, the method returns the
values that are in it. -/
def C48_statement : Prop :=
  ∀ (b : Broker) (a : Api) (req : a.req.T) (id : Int32) (x : Val) (d : Decoder),
    0 ≤ version b a → (version b a).toInt ≤ a.protocolMax → (Protocol.response a).Valid true (version b a) x →
    Holds d (replyPayload a (version b a) id x) →
    ∃ r d', (b.call a req).decode d = .ok r d' ∧ (Protocol.response a).shows (version b a) x (a.respVal r) = true

theorem reply_eq {a : Api} {v : Int16} (hflex : flexible a v = false) (id : Int32) (x : Val) :
    replyPayload a v id x = Wire.int32 id ++ (Protocol.response a).wire false v x := by
  have hh : Protocol.responseHeaderVersion a v = 0 := by simp [Protocol.responseHeaderVersion, hflex]
  have h1 := Msg.ResponseHeader.conforms (v := 0) (by decide) { CorrelationId := id }
  have h2 : Protocol.ResponseHeader.wire false 0 (.struct [("CorrelationId", .int32 id)]) = Wire.int32 id :=
    h1.trans (by simp [Msg.ResponseHeader.wire])
  rw [replyPayload, hh, hflex, Protocol.Ty.wire, h2]
  simp [Protocol.tags]

/-- True at all versions that are not flexible, for replies without null byte strings.  Moreover nothing of the
reply is left.  (Flexible versions and null byte strings are what is missing; see `C48_flexible_fails` and
`C48_null_fails`.) -/
theorem C48_partial (b : Broker) (a : Api) (req : a.req.T) (id : Int32) (x : Val) (d : Decoder)
    (hv : 0 ≤ version b a) (hflex : flexible a (version b a) = false)
    (hx : (Protocol.response a).Valid false (version b a) x)
    (hd : Holds d (replyPayload a (version b a) id x)) :
    ∃ r d', (b.call a req).decode d = .ok r d' ∧ d'.offset = d'.length ∧
      (Protocol.response a).shows (version b a) x (a.respVal r) = true := by
  have hct : a = .CreateTopics → version b a < 5 := by
    rintro rfl
    simp only [flexible, Protocol.flexibleFrom, Option.any_some, decide_eq_false_iff_not] at hflex
    exact Int16.lt_iff_toInt_lt.mpr (Int.not_le.mp hflex)
  have e := reply_eq hflex id x
  have h4 : (Wire.int32 id).length = 4 := by rw [Wire.int32, Protocol.bigEndian_length]
  have hr : d.rest = (Protocol.response a).wire false (version b a) x ++ [] := by
    rw [hd.rest, e, List.drop_append_of_le_length (by omega), List.drop_eq_nil_of_le (by omega)]; simp
  have hok := (a.resp_decodes _ hv hct x hx).1 d (hd.valid (by rw [e]; simp [h4])) [] hr
  refine ⟨_, _, by rw [C19_response]; exact hok, ?_, a.resp_shown _ hv hct x hx.typed⟩
  simp only [Decoder.skip, hd.offset, hd.length, e, List.length_append, h4]
  omega

/-- A decoder that holds a reply and nothing else. -/
def given (payload : List Byte) : Decoder := ⟨payload, payload.length, 4⟩

theorem given_holds (payload : List Byte) (h : payload.length < 2 ^ 62) : Holds (given payload) payload :=
  ⟨List.prefix_refl _, rfl, rfl, h⟩

theorem upTo {v : Int16} {m : Nat} (h0 : 0 ≤ v) (h1 : v.toInt ≤ m) : ∃ n : Nat, n ≤ m ∧ v = Int16.ofNat n := by
  have h2 : (0 : Int) ≤ v.toInt := Int16.le_iff_toInt_le.mp h0
  refine ⟨v.toInt.toNat, by omega, ?_⟩
  rw [← Int16.ofInt_eq_ofNat, Int.toNat_of_nonneg h2]
  simp

/-- A Fetch reply at version 11 meets the hypotheses: one partition with three bytes of records. -/
def sampleFetch (records : Option (List Byte)) : Val :=
  .struct [("ThrottleTimeMs", .int32 0), ("ErrorCode", .int16 0), ("SessionId", .int32 7),
    ("Topics", .arr (some [.struct [("Name", .str (some (goString "t"))), ("Partitions", .arr (some [.struct [
      ("PartitionIndex", .int32 3), ("ErrorCode", .int16 0), ("HighWatermark", .int64 10),
      ("LastStableOffset", .int64 9), ("LogStartOffset", .int64 1), ("Aborted", .arr none),
      ("PreferredReadReplica", .int32 (-1)), ("Records", .bytes records)]]))]]))]

theorem sampleFetch_valid (v : Int16) (nulls : Bool) (r : Option (List Byte)) (hv : 0 ≤ v)
    (h0 : r = none → nulls = true) (hr : ∀ l, r = some l → l.length < 2 ^ 31) :
    (Protocol.response .Fetch).Valid nulls v (sampleFetch r) := by
  show Fields.Valid nulls v Protocol.FetchResponse (sampleFetch r)
  have h : v ≥ 0 := hv
  cases r with
  | none =>
    simp [Protocol.FetchResponse, Protocol.FetchableTopicResponse, Protocol.FetchablePartitionResponse,
      Protocol.field, Protocol.nullable, Fields.Valid, Protocol.Ty.Valid, Protocol.Present, sampleFetch,
      Val.get, List.lookup, goString, h0 rfl, hv]
  | some l =>
    have := hr l rfl
    simp [Protocol.FetchResponse, Protocol.FetchableTopicResponse, Protocol.FetchablePartitionResponse,
      Protocol.field, Protocol.nullable, Fields.Valid, Protocol.Ty.Valid, Protocol.Present, sampleFetch,
      Val.get, List.lookup, goString, this]

example : (Protocol.response .Fetch).Valid false 11 (sampleFetch (some [1, 2, 3])) ∧ flexible .Fetch 11 = false ∧
    (replyPayload .Fetch 11 5 (sampleFetch (some [1, 2, 3]))).length = 70 :=
  ⟨sampleFetch_valid _ _ _ (by decide) (by simp) (by simp), by decide, by decide +kernel⟩

/-- The outcome is a panic. -/
def panics {α : Type} : Res α → Bool
  | .panic => true
  | _ => false

theorem panics_spec {α : Type} {r : Res α} (h : panics r = true) : r = .panic := by
  cases r <;> simp_all [panics]

/-- At every version, a Fetch reply with a partition whose records are null makes the method panic. -/
theorem C48_null_fails (b : Broker) (req : Msg.FetchRequest) (hv : 0 ≤ version b .Fetch)
    (hmax : (version b .Fetch).toInt ≤ (Api.Fetch).protocolMax) :
    ∃ id x d, (Protocol.response .Fetch).Valid true (version b .Fetch) x ∧
      Holds d (replyPayload .Fetch (version b .Fetch) id x) ∧ (b.call .Fetch req).decode d = .panic := by
  refine ⟨1, sampleFetch none, given (replyPayload .Fetch (version b .Fetch) 1 (sampleFetch none)),
    sampleFetch_valid _ _ _ hv (by simp) (by simp), ?_⟩
  have hc := C19_response b .Fetch req
  refine And.imp_right (fun h => (congrFun hc _).trans h) ?_
  obtain ⟨n, hn, e⟩ := upTo (m := 11) hv hmax
  rw [e]
  have h : n = 0 ∨ n = 1 ∨ n = 2 ∨ n = 3 ∨ n = 4 ∨ n = 5 ∨ n = 6 ∨ n = 7 ∨ n = 8 ∨ n = 9 ∨ n = 10 ∨ n = 11 := by omega
  rcases h with rfl | rfl | rfl | rfl | rfl | rfl | rfl | rfl | rfl | rfl | rfl | rfl <;>
    exact ⟨given_holds _ (by decide +kernel), panics_spec (by decide +kernel)⟩

mutual
/-- A value of a type: ones and strings of one byte; arrays are empty. -/
def sampleTy : Protocol.Ty → Val
  | .bool => .bool true
  | .int8 => .int8 1
  | .int16 => .int16 1
  | .int32 => .int32 1
  | .int64 => .int64 1
  | .string => .str (some [1])
  | .bytes => .bytes (some [1])
  | .array _ => .arr (some [])
  | .struct fs => .struct (sampleFields fs)

def sampleFields : Fields → List (String × Val)
  | .done => []
  | .cons name _ _ _ t rest => (name, sampleTy t) :: sampleFields rest
end

/-- The reply `x` with id 1 is not shown. -/
def misread (a : Api) (v : Int16) (x : Val) : Bool :=
  match a.resp.decode v a.resp.zero (given (replyPayload a v 1 x)) with
  | .ok r _ => !(Protocol.response a).shows v x (a.respVal r)
  | _ => true

theorem misread_spec {a : Api} {v : Int16} {x : Val} (h : misread a v x = true) :
    ¬ ∃ r d', a.resp.decode v a.resp.zero (given (replyPayload a v 1 x)) = .ok r d' ∧
      (Protocol.response a).shows v x (a.respVal r) = true := by
  rintro ⟨r, d', h1, h2⟩
  rw [misread, h1] at h
  simp [h2] at h

/-- At the flexible version of each of the 24 APIs that have one, there is a reply from which the method does
not return what is in it. -/
theorem C48_flexible_fails (b : Broker) (a : Api) (req : a.req.T) (hflex : flexible a (version b a) = true)
    (hmax : (version b a).toInt ≤ a.protocolMax) :
    ∃ id x d, (Protocol.response a).Valid true (version b a) x ∧ Holds d (replyPayload a (version b a) id x) ∧
      ¬ ∃ r d', (b.call a req).decode d = .ok r d' ∧
        (Protocol.response a).shows (version b a) x (a.respVal r) = true := by
  refine ⟨1, .struct (sampleFields (Protocol.response a)),
    given (replyPayload a (version b a) 1 (.struct (sampleFields (Protocol.response a)))), ?_⟩
  rw [C19_response]
  generalize version b a = v at *
  obtain ⟨f, hf, rfl⟩ := flexible_version hflex hmax
  have h : (replyPayload a (Int16.ofInt a.protocolMax) 1 (.struct (sampleFields (Protocol.response a)))).length < 2 ^ 62 ∧
      misread a (Int16.ofInt a.protocolMax) (.struct (sampleFields (Protocol.response a))) = true := by
    cases a <;> first | (simp [Protocol.flexibleFrom] at hf; done) | decide +kernel
  refine ⟨?_, given_holds _ h.1, misread_spec h.2⟩
  cases a <;> first
    | (simp [Protocol.flexibleFrom] at hf; done)
    | simp [Protocol.response, Protocol.field, Protocol.nullable, Fields.Valid, Protocol.Ty.Valid,
        sampleFields, sampleTy, Val.get, List.lookup, Protocol.MetadataResponse, Protocol.LeaderAndIsrResponse, Protocol.StopReplicaResponse, Protocol.UpdateMetadataResponse, Protocol.ControlledShutdownResponse, Protocol.OffsetCommitResponse, Protocol.OffsetFetchResponse, Protocol.FindCoordinatorResponse, Protocol.JoinGroupResponse, Protocol.HeartbeatResponse, Protocol.LeaveGroupResponse, Protocol.SyncGroupResponse, Protocol.DescribeGroupsResponse, Protocol.ListGroupsResponse, Protocol.ApiVersionsResponse, Protocol.CreateTopicsResponse, Protocol.DeleteTopicsResponse, Protocol.InitProducerIdResponse, Protocol.CreateDelegationTokenResponse, Protocol.DeleteGroupsResponse, Protocol.ElectLeadersResponse, Protocol.IncrementalAlterConfigsResponse, Protocol.AlterPartitionReassignmentsResponse, Protocol.ListPartitionReassignmentsResponse]

end Kafka.Props
