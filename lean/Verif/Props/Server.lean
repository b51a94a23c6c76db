import Verif.Protocol.Served
import Verif.Protocol.Solid
import Verif.Props.Protocol
import Verif.Props.Rewrite
/-!
Properties C94 and C95: the other end of the connection.

C47 and C48 are about the client, which writes requests and reads replies.  The structures of all messages have `Encode` and
`Decode`, so that a broker can be written with them (for tests, say, or a proxy): it reads requests and writes replies.  Here
these are compared with the description of the protocol in `Verif.Protocol`.
-/
namespace Kafka.Props

open Protocol (flexible requestPayload replyPayload requestHeaderVersion responseHeaderVersion Val Fields)

theorem under_five {a : Api} {v : Int16} (hflex : flexible a v = false) : a = .CreateTopics → v < 5 := by
  rintro rfl
  simp only [flexible, Protocol.flexibleFrom, Option.any_some, decide_eq_false_iff_not] at hflex
  exact Int16.lt_iff_toInt_lt.mpr (Int.not_le.mp hflex)

/-! ### C94 -/

/-- What a broker that uses `Encode` sends as the reply `r` to the request `id`, behind the length: the header, at the version
of the header that belongs to the reply, and the reply. -/
def answer (a : Api) (v : Int16) (id : Int32) (r : a.resp.T) : List Byte :=
  bytesOf (Msg.ResponseHeader.encode (responseHeaderVersion a v) { CorrelationId := id }) ++ bytesOf (a.resp.encode v r)

/-- The full claim: every reply whose lengths can be represented is a valid message of the protocol, and what is sent is that
message with the protocol's header. -/
def C94_statement : Prop :=
  ∀ (a : Api) (v : Int16) (id : Int32) (r : a.resp.T), 0 ≤ v → v.toInt ≤ a.protocolMax → a.respLayout.Fits v r →
    (Protocol.response a).Valid true v (a.respVal r) ∧ answer a v id r = replyPayload a v id (a.respVal r)

theorem answer_eq (a : Api) (v : Int16) (id : Int32) (r : a.resp.T) :
    answer a v id r = Wire.int32 id ++ a.respLayout.wire v r := by
  rw [answer, (a.resp_lawful.emits v r).bytesOf]
  exact congrArg (· ++ _) ((Msg.ResponseHeader.lawful.emits (responseHeaderVersion a v) { CorrelationId := id }).bytesOf.trans
    (by simp [Msg.ResponseHeader.layout, Msg.ResponseHeader.wire]))

/-- True at all versions that are not flexible, provided no slice of scalars is nil where the protocol has no null.  (These
are what is missing; see `C94_flexible_fails` and `C94_nil_fails`.) -/
theorem C94_partial (a : Api) (v : Int16) (id : Int32) (r : a.resp.T) (hv : 0 ≤ v) (hfit : a.respLayout.Fits v r)
    (hflex : flexible a v = false) (hfull : a.respFull v r) :
    (Protocol.response a).Valid true v (a.respVal r) ∧ answer a v id r = replyPayload a v id (a.respVal r) := by
  refine ⟨a.resp_valid v hv (under_five hflex) r hfit hfull, ?_⟩
  rw [answer_eq, reply_eq hflex, a.resp_conforms v hv (under_five hflex)]

/-- The reply to a SaslHandshake meets the hypotheses. -/
example : ∃ r : Msg.SaslHandshakeResponse, (Api.SaslHandshake).respLayout.Fits 1 r ∧ flexible .SaslHandshake 1 = false ∧
    (Api.SaslHandshake).respFull 1 r ∧
    answer .SaslHandshake 1 7 r = [0, 0, 0, 7, 0, 33, 0, 0, 0, 1, 0, 5, 80, 76, 65, 73, 78] := by
  refine ⟨{ ErrorCode := 33, Mechanisms := some [goString "PLAIN"] }, ⟨?_, ?_⟩, by decide, ⟨?_⟩, by decide +kernel⟩
  · simp [FitsSlice, Slice.len, Slice.elems]
  · intro x hx
    simp only [Slice.elems, Option.getD_some, List.mem_singleton] at hx
    subst hx
    simp [FitsString, goString]
  · simp [Slice.NotNil]

/-- A method that is sent the reply returns it (as far as its fields are there at the version, `C14_roundtrip`).  This is so
at all versions: at the flexible ones the two understand each other, and nobody else. -/
theorem C94_returned (b : Broker) (a : Api) (id : Int32) (r : a.resp.T) (hfit : a.respLayout.Fits (version b a) r) (d : Decoder)
    (hd : Holds d (answer a (version b a) id r)) (req : a.req.T) :
    ∃ r', (b.call a req).decode d = .ok r' { d with offset := d.length } ∧
      answer a (version b a) id r' = answer a (version b a) id r := by
  have e := answer_eq a (version b a) id r
  have h4 : (Wire.int32 id).length = 4 := by rw [Wire.int32, Protocol.bigEndian_length]
  have hr : d.rest = a.respLayout.wire (version b a) r ++ [] := by
    rw [hd.rest, e, List.drop_append_of_le_length (by omega), List.drop_eq_nil_of_le (by omega)]; simp
  have hok := (a.resp_lawful.reads _ r hfit a.resp.zero).1 d (hd.valid (by rw [e]; simp [h4])) [] hr
  refine ⟨a.respLayout.seen (version b a) r a.resp.zero, ?_, ?_⟩
  · rw [C19_response, hok]
    congr 1
    simp only [Decoder.skip, hd.offset, hd.length, e, List.length_append, h4]
    congr 1
  · rw [answer_eq, answer_eq, a.resp_lawful.again]

theorem reply_flexible {a : Api} {v : Int16} (hflex : flexible a v = true) (id : Int32) (x : Val) :
    replyPayload a v id x = Wire.int32 id ++ ((if a = .ApiVersions then [] else [0]) ++ (Protocol.Ty.struct (Protocol.response a)).wire true v x) := by
  have h1 (w : Int16) (hw : 0 ≤ w) : Protocol.ResponseHeader.wire false w (.struct [("CorrelationId", .int32 id)]) = Wire.int32 id :=
    (Msg.ResponseHeader.conforms hw { CorrelationId := id }).trans (by simp [Msg.ResponseHeader.wire])
  rw [replyPayload, hflex, h1]
  · rw [List.append_assoc]
    congr 2
    by_cases h : a = .ApiVersions <;> simp [h, hflex, Protocol.tags, responseHeaderVersion]
  · unfold responseHeaderVersion
    split <;> decide

/-- At every flexible version, that is at the highest version of 24 of the 48 APIs, the reply whose fields are all zero is not
written as the protocol says. -/
theorem C94_flexible_fails (a : Api) (v : Int16) (id : Int32) (hflex : flexible a v = true) (hmax : v.toInt ≤ a.protocolMax) :
    answer a v id a.resp.zero ≠ replyPayload a v id (a.respVal a.resp.zero) := by
  intro h
  rw [answer_eq, reply_flexible hflex] at h
  have h2 := List.append_cancel_left h
  clear h
  obtain ⟨f, hf, rfl⟩ := flexible_version hflex hmax
  cases a <;> first | (simp [Protocol.flexibleFrom] at hf; done) | (exact absurd h2 (by decide +kernel))

/-- A SaslHandshake reply without mechanisms, as Go makes it, is written with a null array, which is no reply of the
protocol (message/encoder.go:182-190). -/
theorem C94_nil_fails (v : Int16) (hv : 0 ≤ v) (id : Int32) (c : Int16) (x : Val)
    (hx : (Protocol.response .SaslHandshake).Valid true v x) :
    answer .SaslHandshake v id ({ ErrorCode := c } : Msg.SaslHandshakeResponse) ≠ replyPayload .SaslHandshake v id x := by
  intro h
  replace h := (answer_eq .SaslHandshake v id _).symm.trans h
  rw [reply_eq (by simp [flexible, Protocol.flexibleFrom])] at h
  have h1 : Msg.SaslHandshakeResponse.wire v { ErrorCode := c } = Fields.wire false v Protocol.SaslHandshakeResponse x :=
    List.append_cancel_left h
  have hx : Fields.Valid true v Protocol.SaslHandshakeResponse x := hx
  have h2 := hx.head (show Protocol.Present v 0 none from hv)
  have h3 := hx.tail.head (show Protocol.Present v 0 none from hv)
  simp only [Protocol.SaslHandshakeResponse, Protocol.field, Fields.wire, Protocol.Present, hv, if_true] at h1
  revert h1 h2 h3
  generalize x.get "ErrorCode" = y
  generalize x.get "Mechanisms" = z
  intro h2 h3 h1
  cases y with
  | int16 i =>
    cases z with
    | arr s =>
      cases s with
      | none => simp [Protocol.Ty.Valid] at h3
      | some l =>
        rw [Protocol.Ty.Valid] at h3
        rw [Msg.SaslHandshakeResponse.wire, Protocol.Ty.wire, Protocol.Ty.wire] at h1
        simp only [Wire.stringArray, Wire.nullableArray, Bool.false_eq_true, if_false, List.append_assoc] at h1
        have h4 := (List.append_inj h1 (by rw [Wire.int16, Protocol.bigEndian_length, Protocol.bigEndian_length])).2
        have h5 := (List.append_inj (t₁ := []) (by simpa using h4) (by rw [Wire.int32, Protocol.bigEndian_length, Protocol.bigEndian_length])).1
        have h6 := Protocol.len32_inj (i := (-1 : Int32).toInt) (by decide) (by decide) (by omega) (by omega) h5
        have h7 : (-1 : Int32).toInt = -1 := by decide
        omega
    | _ => simp only [Protocol.Ty.Valid] at h3
  | _ => simp only [Protocol.Ty.Valid] at h2

/-- The full claim is false. -/
theorem C94_fails : ¬ C94_statement := fun h =>
  C94_flexible_fails .ListGroups 3 0 (by decide) (by decide) (h .ListGroups 3 0 (Api.ListGroups).resp.zero (by decide) (by decide)
    (by constructor; exact ⟨by simp [FitsSlice, Slice.len, Slice.elems, Api.resp, Msg.ListGroupsResponse.type], by intro x hx; cases hx⟩)).2

/-! ### C95 -/

/-- What a broker that uses `Decode` makes of the request `x` with the header of the protocol: it reads the header, at the
version of the header that belongs to the request, and then the request. -/
def Heard (a : Api) (v : Int16) (id : Int32) (client : GoString) (x : Val) (d : Decoder) (tail : List Byte) : Prop :=
  ∃ h d1 r d2, Msg.RequestHeader.decode (requestHeaderVersion a v) {} d = .ok h d1 ∧
    h.RequestApiKey = Int16.ofNat a.protocolKey ∧ h.RequestApiVersion = v ∧ h.CorrelationId = id ∧
    h.ClientId = (if requestHeaderVersion a v = 0 then [] else client) ∧
    a.req.decode v a.req.zero d1 = .ok r d2 ∧ (Protocol.request a).shows v x (a.reqAsked r) = true ∧
    d2.rest = tail

/-- The full claim: every request that the protocol allows is understood, and exactly its bytes are taken. -/
def C95_statement : Prop :=
  ∀ (a : Api) (v : Int16) (id : Int32) (client : GoString) (x : Val) (d : Decoder) (tail : List Byte),
    0 ≤ v → v.toInt ≤ a.protocolMax → client.length < 2 ^ 15 → (Protocol.request a).Valid true v x → d.Valid →
    d.rest = requestPayload a v id client x ++ tail → Heard a v id client x d tail

theorem header_version {a : Api} {v : Int16} (hflex : flexible a v = false) :
    requestHeaderVersion a v = 0 ∨ requestHeaderVersion a v = 1 := by
  unfold requestHeaderVersion
  rw [hflex]
  by_cases h : a = .ControlledShutdown ∧ v = 0 <;> simp [h]

/-- True at all versions that are not flexible, except OffsetCommit version 1, for requests without null byte strings.
(These are what is missing; see `C95_flexible_fails`, `C95_commit_fails` and `C95_null_fails`.) -/
theorem C95_partial (a : Api) (v : Int16) (id : Int32) (client : GoString) (x : Val) (d : Decoder) (tail : List Byte)
    (hv : 0 ≤ v) (hflex : flexible a v = false) (hcommit : a = .OffsetCommit → v ≠ 1) (hc : client.length < 2 ^ 15)
    (hx : (Protocol.request a).Valid false v x) (hd : d.Valid) (hr : d.rest = requestPayload a v id client x ++ tail) :
    Heard a v id client x d tail := by
  have hw := header_version hflex
  have hw0 : 0 ≤ requestHeaderVersion a v := by rcases hw with h | h <;> rw [h] <;> decide
  have hw2 : Protocol.tags (requestHeaderVersion a v = 2) = [] := by rcases hw with h | h <;> rw [h] <;> decide
  rw [requestPayload, hw2, List.append_nil, hflex, Protocol.Ty.wire, if_neg (by decide), List.append_nil, List.append_assoc] at hr
  have hh := Msg.RequestHeader.decodes hw0 (.struct [("RequestApiKey", .int16 (Int16.ofNat a.protocolKey)),
    ("RequestApiVersion", .int16 v), ("CorrelationId", .int32 id), ("ClientId", .str (some client))])
    (by simp [Protocol.RequestHeader, Protocol.field, Protocol.nullable, Fields.Valid, Protocol.Ty.Valid, Val.get, List.lookup, hc]) {}
  have h1 := hh.1 d hd _ hr
  have hl := congrArg List.length hr
  rw [List.length_append, List.length_append] at hl
  have hd1 := Decoder.skip_valid hd (n := (Fields.wire false (requestHeaderVersion a v) Protocol.RequestHeader
    (.struct [("RequestApiKey", .int16 (Int16.ofNat a.protocolKey)),
    ("RequestApiVersion", .int16 v), ("CorrelationId", .int32 id), ("ClientId", .str (some client))])).length) (by omega)
  have hr1 := (Decoder.skip_rest hd _).trans ((congrArg _ hr).trans (List.drop_left ..))
  have h2 := (a.req_decodes v hv hcommit x hx).1 _ hd1 _ hr1
  refine ⟨_, _, _, _, h1, rfl, rfl, rfl, ?_, h2, a.req_shown v hv hcommit x hx.typed, ?_⟩
  · rcases hw with h | h <;> rw [h] <;> rfl
  · rw [Decoder.skip_rest hd1, hr1, List.drop_left]

/-- A Produce request at version 3 with three bytes of records meets the hypotheses: with its header it is 50 bytes long. -/
def askedProduce (records : Option (List Byte)) : Val :=
  .struct [("TransactionalId", .str none), ("Acks", .int16 (-1)), ("TimeoutMs", .int32 1500),
    ("Topics", .arr (some [.struct [("Name", .str (some (goString "topic"))), ("Partitions", .arr (some [.struct [
      ("PartitionIndex", .int32 3), ("Records", .bytes records)]]))]]))]

theorem askedProduce_valid (v : Int16) (nulls : Bool) (r : Option (List Byte)) (h0 : r = none → nulls = true)
    (hr : ∀ l, r = some l → l.length < 2 ^ 31) (hv : 0 ≤ v) : (Protocol.request .Produce).Valid nulls v (askedProduce r) := by
  show Fields.Valid nulls v Protocol.ProduceRequest (askedProduce r)
  cases r with
  | none =>
    simp [Protocol.ProduceRequest, Protocol.TopicProduceData, Protocol.PartitionProduceData, Protocol.field, Protocol.nullable,
      Fields.Valid, Protocol.Ty.Valid, askedProduce, Val.get, List.lookup, goString, h0 rfl, hv]
  | some l =>
    have := hr l rfl
    simp [Protocol.ProduceRequest, Protocol.TopicProduceData, Protocol.PartitionProduceData, Protocol.field, Protocol.nullable,
      Fields.Valid, Protocol.Ty.Valid, askedProduce, Val.get, List.lookup, goString, this, hv]

example : (Protocol.request .Produce).Valid false 3 (askedProduce (some [1, 2, 3])) ∧ flexible .Produce 3 = false ∧
    (requestPayload .Produce 3 5 (goString "client") (askedProduce (some [1, 2, 3]))).length = 50 :=
  ⟨askedProduce_valid _ _ _ (by simp) (by simp) (by decide), by decide, by decide +kernel⟩

/-- Reading the header and the request one after the other. -/
def reading (a : Api) (v : Int16) : Dec (Msg.RequestHeader × a.req.T) :=
  Msg.RequestHeader.decode (requestHeaderVersion a v) {} >>= fun h => (fun r => (h, r)) <$> a.req.decode v a.req.zero

/-- A request that has not arrived completely is not taken for one: reading it fails with the error for a short buffer,
wherever it is cut. -/
theorem C95_cut (a : Api) (v : Int16) (id : Int32) (client : GoString) (x : Val) (d : Decoder)
    (hv : 0 ≤ v) (hflex : flexible a v = false) (hcommit : a = .OffsetCommit → v ≠ 1) (hc : client.length < 2 ^ 15)
    (hx : (Protocol.request a).Valid false v x) (hd : d.Valid) (n : Nat) (hn : n < (requestPayload a v id client x).length)
    (hr : d.rest = (requestPayload a v id client x).take n) : ∃ d', reading a v d = .err .shortBuffer d' := by
  have hw := header_version hflex
  have hw0 : 0 ≤ requestHeaderVersion a v := by rcases hw with h | h <;> rw [h] <;> decide
  have hw2 : Protocol.tags (requestHeaderVersion a v = 2) = [] := by rcases hw with h | h <;> rw [h] <;> decide
  have e : requestPayload a v id client x = Protocol.RequestHeader.wire false (requestHeaderVersion a v) (.struct [("RequestApiKey", .int16 (Int16.ofNat a.protocolKey)),
    ("RequestApiVersion", .int16 v), ("CorrelationId", .int32 id), ("ClientId", .str (some client))]) ++
      (Protocol.request a).wire false v x := by
    rw [requestPayload, hw2, List.append_nil, hflex, Protocol.Ty.wire, if_neg (by decide), List.append_nil]
  have hh := Msg.RequestHeader.decodes hw0 (.struct [("RequestApiKey", .int16 (Int16.ofNat a.protocolKey)),
    ("RequestApiVersion", .int16 v), ("CorrelationId", .int32 id), ("ClientId", .str (some client))])
    (by simp [Protocol.RequestHeader, Protocol.field, Protocol.nullable, Fields.Valid, Protocol.Ty.Valid, Val.get, List.lookup, hc]) {}
  have h1 := (hh.bind (k := fun h => (fun r => (h, r)) <$> a.req.decode v a.req.zero)
    (Reads.map (a.req_decodes v hv hcommit x hx))).2 d hd
  rw [← e, hr] at h1
  refine h1 (List.take_prefix _ _) fun h => ?_
  have := congrArg List.length h
  rw [List.length_take] at this
  omega

/-- The request `x` is not read from these bytes. -/
def misheard (a : Api) (v : Int16) (x : Val) (d : Decoder) : Bool :=
  match Msg.RequestHeader.decode (requestHeaderVersion a v) {} d with
  | .ok _ d1 =>
    match a.req.decode v a.req.zero d1 with
    | .ok r d2 => !((Protocol.request a).shows v x (a.reqAsked r) && d2.rest.isEmpty)
    | _ => true
  | _ => true

theorem misheard_spec {a : Api} {v : Int16} {x : Val} {d : Decoder} (h : misheard a v x d = true) : ¬ Heard a v 1 [] x d [] := by
  intro hh
  unfold Heard at hh
  obtain ⟨_, d1, r, d2, h1, _, _, _, _, h2, h3, h4⟩ := hh
  unfold misheard at h
  simp only [h1, h2, h3, h4, List.isEmpty_nil, Bool.and_self, Bool.not_true, Bool.false_eq_true] at h

/-- A decoder that holds the request `x` with id 1 and no client id. -/
def askedDecoder (a : Api) (v : Int16) (x : Val) : Decoder :=
  newDecoder (requestPayload a v 1 [] x) (requestPayload a v 1 [] x).length

theorem askedDecoder_rest (a : Api) (v : Int16) (x : Val) : (askedDecoder a v x).rest = requestPayload a v 1 [] x ++ [] := by
  rw [askedDecoder, newDecoder_rest, List.append_nil]

/-- At the flexible version of each of the 24 APIs that have one, there is a request that is not understood. -/
theorem C95_flexible_fails (a : Api) (v : Int16) (hflex : flexible a v = true) (hmax : v.toInt ≤ a.protocolMax) :
    ∃ x d, (Protocol.request a).Valid true v x ∧ d.Valid ∧ d.rest = requestPayload a v 1 [] x ++ [] ∧
      ¬ Heard a v 1 [] x d [] := by
  obtain ⟨f, hf, rfl⟩ := flexible_version hflex hmax
  have h : (requestPayload a (Int16.ofInt a.protocolMax) 1 [] (.struct (sampleFields (Protocol.request a)))).length < 2 ^ 62 ∧
      misheard a (Int16.ofInt a.protocolMax) (.struct (sampleFields (Protocol.request a)))
        (askedDecoder a (Int16.ofInt a.protocolMax) (.struct (sampleFields (Protocol.request a)))) = true := by
    cases a <;> first | (simp [Protocol.flexibleFrom] at hf; done) | decide +kernel
  refine ⟨.struct (sampleFields (Protocol.request a)), _, ?_, newDecoder_valid h.1, askedDecoder_rest _ _ _, misheard_spec h.2⟩
  cases a <;> first
    | (simp [Protocol.flexibleFrom] at hf; done)
    | simp [Protocol.request, Protocol.field, Protocol.until_, Protocol.nullable, Fields.Valid, Protocol.Ty.Valid, Protocol.MetadataRequest, Protocol.LeaderAndIsrRequest, Protocol.StopReplicaRequest, Protocol.UpdateMetadataRequest, Protocol.ControlledShutdownRequest, Protocol.OffsetCommitRequest, Protocol.OffsetFetchRequest, Protocol.FindCoordinatorRequest, Protocol.JoinGroupRequest, Protocol.HeartbeatRequest, Protocol.LeaveGroupRequest, Protocol.SyncGroupRequest, Protocol.DescribeGroupsRequest, Protocol.ListGroupsRequest, Protocol.ApiVersionsRequest, Protocol.CreateTopicsRequest, Protocol.DeleteTopicsRequest, Protocol.InitProducerIdRequest, Protocol.CreateDelegationTokenRequest, Protocol.DeleteGroupsRequest, Protocol.ElectLeadersRequest, Protocol.IncrementalAlterConfigsRequest, Protocol.AlterPartitionReassignmentsRequest, Protocol.ListPartitionReassignmentsRequest,
        sampleFields, sampleTy, Val.get, List.lookup]

/-- The commit timestamp that an OffsetCommit request has at version 1 is taken for the metadata. -/
theorem C95_commit_fails : ∃ x d, (Protocol.request .OffsetCommit).Valid false 1 x ∧ d.Valid ∧
    d.rest = requestPayload .OffsetCommit 1 1 [] x ++ [] ∧ ¬ Heard .OffsetCommit 1 1 [] x d [] := by
  refine ⟨.struct [("GroupId", .str (some (goString "g"))), ("GenerationId", .int32 0), ("MemberId", .str (some [])),
    ("Topics", .arr (some [.struct [("Name", .str (some (goString "t"))),
      ("Partitions", .arr (some [.struct [("PartitionIndex", .int32 0), ("CommittedOffset", .int64 5),
        ("CommitTimestamp", .int64 1573862400000), ("CommittedMetadata", .str (some []))]]))]]))], askedDecoder _ _ _, ?_, newDecoder_valid (by decide +kernel),
    askedDecoder_rest _ _ _, misheard_spec (by decide +kernel)⟩
  show Fields.Valid false 1 Protocol.OffsetCommitRequest _
  simp [Protocol.OffsetCommitRequest, Protocol.OffsetCommitRequestTopic, Protocol.OffsetCommitRequestPartition,
    Protocol.field, Protocol.until_, Protocol.nullable, Fields.Valid, Protocol.Ty.Valid, Protocol.Present,
    Val.get, List.lookup, goString]

/-- A Produce request with null records, which the protocol allows, makes `Decode` panic (message/decoder.go:87-102). -/
theorem C95_null_fails (v : Int16) (hv : 0 ≤ v) (hmax : v.toInt ≤ (Api.Produce).protocolMax) :
    ∃ x d, (Protocol.request .Produce).Valid true v x ∧ d.Valid ∧ d.rest = requestPayload .Produce v 1 [] x ++ [] ∧
      reading .Produce v d = .panic := by
  refine ⟨askedProduce none, askedDecoder .Produce v (askedProduce none), askedProduce_valid v true none (by simp) (by simp) hv, ?_⟩
  obtain ⟨n, hn, rfl⟩ := upTo (m := 8) hv hmax
  have h : n = 0 ∨ n = 1 ∨ n = 2 ∨ n = 3 ∨ n = 4 ∨ n = 5 ∨ n = 6 ∨ n = 7 ∨ n = 8 := by omega
  rcases h with rfl | rfl | rfl | rfl | rfl | rfl | rfl | rfl | rfl <;>
    exact ⟨newDecoder_valid (by decide +kernel), askedDecoder_rest _ _ _, panics_spec (by decide +kernel)⟩

/-- The full claim is false. -/
theorem C95_fails : ¬ C95_statement := by
  intro h
  obtain ⟨x, d, hx, hd, hr, hn⟩ := C95_flexible_fails .ListGroups 3 (by decide) (by decide)
  exact hn (h .ListGroups 3 1 [] x d [] (by decide) (by decide) (by decide) hx hd hr)

/-! ### C93, for the messages of the protocol -/

/-- A reply of the protocol in which nothing is null is encoded again as it was. -/
theorem C93_reply (a : Api) (v : Int16) (x : Val) (d : Decoder) (tail : List Byte) (hv : 0 ≤ v) (hflex : flexible a v = false)
    (hx : (Protocol.response a).Valid false v x) (hs : (Protocol.response a).Solid v x) (hd : d.Valid)
    (hr : d.rest = (Protocol.response a).wire false v x ++ tail) :
    ∃ r, a.resp.decode v a.resp.zero d = .ok r (d.skip (bytesOf (a.resp.encode v r)).length) ∧
      bytesOf (a.resp.encode v r) = (Protocol.response a).wire false v x := by
  have e : bytesOf (a.resp.encode v (a.respOf v x)) = (Protocol.response a).wire false v x := by
    rw [(a.resp_lawful.emits v _).bytesOf, ← a.resp_conforms v hv (under_five hflex),
      hs.wire false (a.resp_shown v hv (under_five hflex) x hx.typed)]
  exact ⟨_, by rw [e]; exact (a.resp_decodes v hv (under_five hflex) x hx).1 d hd tail hr, e⟩

/-- So is a request. -/
theorem C93_request (a : Api) (v : Int16) (x : Val) (d : Decoder) (tail : List Byte) (hv : 0 ≤ v)
    (hcommit : a = .OffsetCommit → v ≠ 1)
    (hx : (Protocol.request a).Valid false v x) (hs : (Protocol.request a).Solid v x) (hd : d.Valid)
    (hr : d.rest = (Protocol.request a).wire false v x ++ tail) :
    ∃ r, a.req.decode v a.req.zero d = .ok r (d.skip (bytesOf (a.req.encode v r)).length) ∧
      bytesOf (a.req.encode v r) = (Protocol.request a).wire false v x := by
  have e : bytesOf (a.req.encode v (a.reqOf v x)) = (Protocol.request a).wire false v x := by
    rw [(a.req_lawful.emits v _).bytesOf, ← a.req_asked_conforms v hv hcommit,
      hs.wire false (a.req_shown v hv hcommit x hx.typed)]
  exact ⟨_, by rw [e]; exact (a.req_decodes v hv hcommit x hx).1 d hd tail hr, e⟩

/-- A Fetch reply with an empty list of aborted transactions and three bytes of records meets the hypotheses. -/
example : ∃ x : Val, (Protocol.response .Fetch).Valid false 4 x ∧ (Protocol.response .Fetch).Solid 4 x ∧ flexible .Fetch 4 = false ∧
    ((Protocol.response .Fetch).wire false 4 x).length = 48 := by
  refine ⟨.struct [("ThrottleTimeMs", .int32 0), ("Topics", .arr (some [.struct [("Name", .str (some (goString "t"))),
    ("Partitions", .arr (some [.struct [("PartitionIndex", .int32 3), ("ErrorCode", .int16 0), ("HighWatermark", .int64 10),
      ("LastStableOffset", .int64 9), ("Aborted", .arr (some [])), ("Records", .bytes (some [1, 2, 3]))]]))]]))],
    ?_, ?_, by decide, by decide +kernel⟩
  · show Fields.Valid false 4 Protocol.FetchResponse _
    simp [Protocol.FetchResponse, Protocol.FetchableTopicResponse, Protocol.FetchablePartitionResponse, Protocol.field,
      Protocol.nullable, Fields.Valid, Protocol.Ty.Valid, Protocol.Present, Val.get, List.lookup, goString]
  · show Fields.Solid 4 Protocol.FetchResponse _
    simp [Protocol.FetchResponse, Protocol.FetchableTopicResponse, Protocol.FetchablePartitionResponse, Protocol.field,
      Protocol.nullable, Fields.Solid, Protocol.Ty.Solid, Protocol.Present, Val.get, List.lookup, goString]

end Kafka.Props
