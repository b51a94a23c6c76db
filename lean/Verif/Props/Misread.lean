import Verif.Protocol.View
import Verif.Props.Asking
/-!
Property C92: a request that does not fit into the protocol.

`PutString` writes the low 16 bits of a length (message/encoder.go:174-179), so a string of 65536 bytes more than some other
length looks like one of that length, and the bytes behind it like the fields that follow.
-/
namespace Kafka.Props

open Kafka.Msg
open Protocol (flexible requestFrame requestPayload Val Fields)

/-- The frame in `bytes` begins with a request of the protocol: of API `a` at version `v`, which is not flexible, with the
value `x`.  A broker reads the fields one after the other; brokers differ in what they do with bytes behind the last. -/
def Begins (a : Api) (bytes : List Byte) (v : Int16) (x : Val) : Prop :=
  0 ≤ v ∧ flexible a v = false ∧ ¬(a = .ControlledShutdown ∧ v = 0) ∧ (Protocol.request a).Valid true v x ∧
    ∃ (id : Int32) (client : GoString) (rest : List Byte), client.length < 2 ^ 15 ∧
      bytes = Wire.bigEndian 4 ((requestPayload a v id client x).length + rest.length) ++
        requestPayload a v id client x ++ rest

/-- A frame that is a request begins with it. -/
theorem Means.begins {a : Api} {bytes : List Byte} {v : Int16} {x : Val} (h : Means a bytes v x) : Begins a bytes v x := by
  obtain ⟨h1, h2, h3, h4, id, client, hc, h⟩ := h
  exact ⟨h1, h2, h3, h4, id, client, [], hc, by rw [h, requestFrame]; simp⟩

/-- The full claim: what a broker reads in the frame of a call is what the caller asked for.  (Whatever the request:
what does not fit is to be refused.  The client id is that of all brokers the client makes, `C41_config`, or another that fits.) -/
def C92_statement : Prop :=
  ∀ (b : Broker) (a : Api) (req : a.req.T) (id : Int32) (a' : Api) (v : Int16) (x : Val),
    (a = .OffsetCommit → version b a ≠ 1) → b.config.clientID.length < 2 ^ 15 → Begins a' (written b a req id) v x →
    a' = a ∧ v = version b a ∧ (Protocol.request a').view v x = (Protocol.request a).view (version b a) (a.reqVal req)

/-- The API and the version, which come first, are those of the call in any case; what is read as the body is, if the client
id fits, the beginning of the body. -/
theorem Begins.header {b : Broker} {a : Api} {req : a.req.T} {id : Int32} {a' : Api} {v : Int16} {x : Val}
    (h : Begins a' (written b a req id) v x) :
    a' = a ∧ v = version b a ∧ (b.config.clientID.length < 2 ^ 15 →
      ∃ rest, a.reqLayout.wire (version b a) req = (Protocol.request a').wire false v x ++ rest) := by
  obtain ⟨_, hflex, hshut, _, id', client, rest, hcl, h⟩ := h
  rw [written, (call_emits b a req id).bytesOf, payload_plain _ _ _ hflex hshut, List.append_assoc] at h
  have h1 := (List.append_inj h (by rw [Wire.int32, Protocol.bigEndian_length, Protocol.bigEndian_length])).2
  have hp : Wire.requestPayload a'.key v id' client ((Protocol.request a').wire false v x) ++ rest =
      Wire.requestPayload a'.key v id' client ((Protocol.request a').wire false v x ++ rest) := by
    simp only [Wire.requestPayload, List.append_assoc]
  rw [hp] at h1
  have h4 : a.key = a'.key ∧ b.apiVersion.get a = v := by
    simp only [Wire.requestPayload, List.append_assoc] at h1
    obtain ⟨k1, k0, hk1, hk2⟩ := readInt16_int16 a.key
    obtain ⟨l1, l0, hl1, hl2⟩ := readInt16_int16 a'.key
    obtain ⟨m1, m0, hm1, hm2⟩ := readInt16_int16 (b.apiVersion.get a)
    obtain ⟨n1, n0, hn1, hn2⟩ := readInt16_int16 v
    rw [hk1, hl1, hm1, hn1] at h1
    simp only [List.cons_append, List.nil_append, List.cons.injEq] at h1
    obtain ⟨rfl, rfl, rfl, rfl, _⟩ := h1
    exact ⟨Int16.toInt_inj.1 (hk2.symm.trans hl2), Int16.toInt_inj.1 (hm2.symm.trans hn2)⟩
  obtain ⟨h5, h6⟩ := h4
  refine ⟨(Api.key_inj h5).symm, h6.symm, fun hc => ⟨rest, ?_⟩⟩
  have h2 := congrArg Wire.parseRequest h1
  rw [parse_payload _ _ _ hc, parse_payload _ _ _ hcl] at h2
  simp only [Option.some.injEq, Wire.ParsedRequest.mk.injEq] at h2
  exact h2.2.2.2.2

/-- True of requests that are messages of the protocol, with a client id that fits: a broker reads them as they were
meant, also if it does not mind bytes behind them. -/
theorem C92_partial (b : Broker) (a : Api) (req : a.req.T) (id : Int32) (hcommit : a = .OffsetCommit → version b a ≠ 1)
    (hvalid : (Protocol.request a).Valid true (version b a) (a.reqVal req)) (hc : b.config.clientID.length < 2 ^ 15)
    (a' : Api) (v : Int16) (x : Val) (h : Begins a' (written b a req id) v x) :
    a' = a ∧ v = version b a ∧ (Protocol.request a').view v x = (Protocol.request a).view (version b a) (a.reqVal req) := by
  obtain ⟨h1, h2, h3⟩ := h.header
  obtain ⟨rest, h3⟩ := h3 hc
  obtain ⟨hv, _, _, hx, _⟩ := h
  subst h1 h2
  refine ⟨rfl, rfl, ?_⟩
  rw [← a'.req_conforms _ hv hcommit req] at h3
  exact ((Protocol.request a').tells true _ _ _ rest [] hx hvalid (by rw [List.append_nil, h3])).1

/-- And of no others: a request that is no message of the protocol is read as another request, if it is read as one at
all. -/
theorem C92_other (b : Broker) (a : Api) (req : a.req.T) (id : Int32)
    (hvalid : ¬(Protocol.request a).Valid true (version b a) (a.reqVal req))
    (a' : Api) (v : Int16) (x : Val) (h : Begins a' (written b a req id) v x) :
    a' = a ∧ v = version b a ∧ (Protocol.request a').view v x ≠ (Protocol.request a).view (version b a) (a.reqVal req) := by
  obtain ⟨h1, h2, _⟩ := h.header
  obtain ⟨_, _, _, hx, _⟩ := h
  subst h1 h2
  exact ⟨rfl, rfl, fun e => hvalid ((Protocol.request a').valid_view true _ _ _ e hx)⟩

/-! ## Requests read as others -/

theorem len16_wrap (n : Nat) : Wire.int16 (Int16.ofNat (n + 65536)) = Wire.int16 (Int16.ofNat n) := by
  have : Int16.ofNat (n + 65536) = Int16.ofNat n := by
    apply Int16.toInt_inj.1
    rw [Int16.toInt_ofNat', Int16.toInt_ofNat']
    show ((n + 65536 : Nat) : Int).bmod 65536 = (n : Int).bmod 65536
    rw [Int.natCast_add]
    exact Int.add_bmod_right ..
  rw [this]

/-- A string that is longer than another by 65536 bytes, and begins with it, is written as that and the bytes behind. -/
theorem string_wrap (s w : List Byte) (h : w.length = 65536) : Wire.string (s ++ w) = Wire.string s ++ w := by
  unfold Wire.string
  rw [List.length_append, h, len16_wrap, List.append_assoc]

/-- How a call begins with a request. -/
theorem begins_of {b : Broker} {a : Api} {req req' : a.req.T} {id : Int32} (client : GoString) (rest : List Byte)
    (hv : 0 ≤ version b a) (hflex : flexible a (version b a) = false) (hshut : ¬(a = .ControlledShutdown ∧ version b a = 0))
    (hcommit : a = .OffsetCommit → version b a ≠ 1) (hfit : a.reqLayout.Fits (version b a) req')
    (hfull : a.reqFull (version b a) req') (hc : client.length < 2 ^ 15)
    (h : Wire.string b.config.clientID ++ a.reqLayout.wire (version b a) req =
      Wire.string client ++ (a.reqLayout.wire (version b a) req' ++ rest)) :
    Begins a (written b a req id) (version b a) (a.reqVal req') ∧
      (rest = [] → Means a (written b a req id) (version b a) (a.reqVal req')) := by
  have hp : Wire.requestPayload a.key (version b a) id b.config.clientID (a.reqLayout.wire (version b a) req) =
      requestPayload a (version b a) id client (a.reqVal req') ++ rest := by
    rw [payload_plain _ _ _ hflex hshut, a.req_conforms _ hv hcommit req']
    simp only [Wire.requestPayload, List.append_assoc]
    rw [h]
  refine ⟨⟨hv, hflex, hshut, a.req_valid _ hv hcommit req' hfit hfull, id, client, rest, hc, ?_⟩, fun hr =>
    ⟨hv, hflex, hshut, a.req_valid _ hv hcommit req' hfit hfull, id, client, hc, ?_⟩⟩
  · rw [written, (call_emits b a req id).bytesOf, Wire.frame, hp, List.length_append, ← Protocol.len32, ← List.append_assoc]
    rfl
  · subst hr
    rw [written, (call_emits b a req id).bytesOf, Wire.frame, hp, List.append_nil, ← Protocol.len32, requestFrame]

/-- Whatever key, of a group or a transaction, there is one such that to ask for its coordinator is to ask for that of the
first. -/
theorem C92_coordinator {b : Broker} (hv : 0 ≤ version b .FindCoordinator)
    (hflex : flexible .FindCoordinator (version b .FindCoordinator) = false) (hc : b.config.clientID.length < 2 ^ 15)
    (key : GoString) (hk : key.length < 2 ^ 15) (ty : Int8) :
    ∃ s, ∀ (ty' : Int8) (id : Int32),
      Begins .FindCoordinator (written b .FindCoordinator ({ Key := s, KeyType := ty' } : FindCoordinatorRequest) id)
        (version b .FindCoordinator) (FindCoordinatorRequest.val { Key := key, KeyType := ty }) := by
  by_cases h1 : version b .FindCoordinator ≥ 1
  · refine ⟨key ++ (Wire.int8 ty ++ List.replicate 65535 0), fun ty' id => ?_⟩
    refine (begins_of (a := .FindCoordinator) (req' := ({ Key := key, KeyType := ty } : FindCoordinatorRequest))
      b.config.clientID (List.replicate 65535 0 ++ Wire.int8 ty') hv hflex (by simp) (by simp) ⟨hk⟩ trivial hc ?_).1
    congr 1
    show FindCoordinatorRequest.wire (version b .FindCoordinator) _ = FindCoordinatorRequest.wire (version b .FindCoordinator) _ ++ _
    simp only [FindCoordinatorRequest.wire, Wire.when, if_pos h1]
    rw [string_wrap key _ (by rw [List.length_append, Wire.int8, Protocol.bigEndian_length, List.length_replicate])]
    simp only [List.append_assoc]
  · refine ⟨key ++ List.replicate 65536 0, fun ty' id => ?_⟩
    refine (begins_of (a := .FindCoordinator) (req' := ({ Key := key, KeyType := ty } : FindCoordinatorRequest))
      b.config.clientID (List.replicate 65536 0) hv hflex (by simp) (by simp) ⟨hk⟩ trivial hc ?_).1
    congr 1
    show FindCoordinatorRequest.wire (version b .FindCoordinator) _ = FindCoordinatorRequest.wire (version b .FindCoordinator) _ ++ _
    simp only [FindCoordinatorRequest.wire, Wire.when, if_neg h1]
    rw [string_wrap key _ (by rw [List.length_replicate])]
    simp only [List.append_nil]

/-- Whatever topics, there is a name such that a broker that is told to delete the topic of that name, and as many others as
there are topics, deletes those. -/
theorem C92_delete {b : Broker} (hv : 0 ≤ version b .DeleteTopics)
    (hflex : flexible .DeleteTopics (version b .DeleteTopics) = false) (hc : b.config.clientID.length < 2 ^ 15)
    (t : GoString) (ts : List GoString) (ht : ∀ s ∈ t :: ts, s.length < 2 ^ 15) (tm : Int32)
    (hl : (ts.flatMap Wire.string).length + 4 ≤ 65536) (hn : ts.length + 1 < 2 ^ 31) :
    ∃ s, ∀ (l : List GoString) (tm' id : Int32), l.length = ts.length →
      Begins .DeleteTopics (written b .DeleteTopics ({ TopicNames := some (s :: l), TimeoutMs := tm' } : DeleteTopicsRequest) id)
        (version b .DeleteTopics)
        (DeleteTopicsRequest.val { TopicNames := some (t :: ts), TimeoutMs := tm }) := by
  have h4 : (Wire.int32 tm).length = 4 := by rw [Wire.int32, Protocol.bigEndian_length]
  refine ⟨t ++ (ts.flatMap Wire.string ++ (Wire.int32 tm ++ List.replicate (65536 - ((ts.flatMap Wire.string).length + 4)) 0)),
    fun l tm' id hlen => ?_⟩
  refine (begins_of (a := .DeleteTopics) (req' := ({ TopicNames := some (t :: ts), TimeoutMs := tm } : DeleteTopicsRequest))
    b.config.clientID (List.replicate (65536 - ((ts.flatMap Wire.string).length + 4)) 0 ++ (l.flatMap Wire.string ++ Wire.int32 tm'))
    hv hflex (by simp) (by simp) ⟨?_⟩ ⟨?_⟩ hc ?_).1
  · refine ⟨?_, ?_⟩
    · exact hn
    · exact ht
  · intro h; cases h
  · congr 1
    show DeleteTopicsRequest.wire (version b .DeleteTopics) _ = DeleteTopicsRequest.wire (version b .DeleteTopics) _ ++ _
    simp only [DeleteTopicsRequest.wire, Wire.stringArray, Wire.nullableArray, List.length_cons, hlen, List.flatMap_cons]
    rw [string_wrap t _ (by simp only [List.length_append, h4, List.length_replicate]; omega)]
    simp only [List.append_assoc]

/-- The bytes of a topic behind its name. -/
def topicEnd (v : Int16) (t : CreatableTopic19) : List Byte :=
  Wire.int32 t.NumPartitions ++ Wire.int16 t.ReplicationFactor ++
    Wire.array (CreatableReplicaAssignment19.wire v) t.Assignments ++ Wire.array (CreateableTopicConfig19.wire v) t.Configs

theorem topic_wire (v : Int16) (t : CreatableTopic19) : t.wire v = Wire.string t.Name ++ topicEnd v t := by
  simp only [CreatableTopic19.wire, topicEnd, List.append_assoc]

theorem int32_len (i : Int32) : (Wire.int32 i).length = 4 := by rw [Wire.int32, Protocol.bigEndian_length]
theorem int16_len (i : Int16) : (Wire.int16 i).length = 2 := by rw [Wire.int16, Protocol.bigEndian_length]

/-- Three configurations without names that fill up a topic. -/
def fillers (z w : List Byte) : List CreateableTopicConfig19 :=
  [{ Value := List.replicate 20000 0 }, { Value := List.replicate 20000 0 }, { Value := z ++ w }]

/-- The bytes of a topic with fillers are 65536, and those with which the last filler ends. -/
theorem fillers_wire (v : Int16) (u : CreatableTopic19) (w : List Byte) (hu : (topicEnd v u).length ≤ 25000) :
    ∃ z W : List Byte, W.length = 65536 ∧ z.length = 25524 - (topicEnd v u).length ∧
      topicEnd v { u with Configs := some (u.Configs.elems ++ fillers z w) } = W ++ w := by
  refine ⟨List.replicate (25524 - (topicEnd v u).length) 0,
    Wire.int32 u.NumPartitions ++ (Wire.int16 u.ReplicationFactor ++
    (Wire.array (CreatableReplicaAssignment19.wire v) u.Assignments ++
      (Wire.int32 (Int32.ofNat (u.Configs.elems.length + 3)) ++ (u.Configs.elems.flatMap (CreateableTopicConfig19.wire v) ++
      (Wire.string [] ++ (Wire.string (List.replicate 20000 0) ++ (Wire.string [] ++ (Wire.string (List.replicate 20000 0) ++
        (Wire.string [] ++ (Wire.int16 (Int16.ofNat (25524 - (topicEnd v u).length + w.length)) ++
          List.replicate (25524 - (topicEnd v u).length) 0)))))))))), ?_, by simp, ?_⟩
  · have he : (topicEnd v u).length = 4 + 2 + (Wire.array (CreatableReplicaAssignment19.wire v) u.Assignments).length +
        (4 + (u.Configs.elems.flatMap (CreateableTopicConfig19.wire v)).length) := by
      simp only [topicEnd, List.length_append, int32_len, int16_len]
      rw [Wire.array, Wire.array, List.length_append, List.length_append, int32_len, int32_len]
    simp only [List.length_append, Wire.string, int32_len, int16_len, List.length_replicate, List.length_nil]
    omega
  · simp only [topicEnd, fillers, Wire.array, Slice.len, Slice.elems, Option.getD_some, List.length_append, List.length_cons,
      List.length_nil, List.flatMap_append, List.flatMap_cons, List.flatMap_nil, CreateableTopicConfig19.wire, Wire.string,
      List.append_assoc, List.length_replicate, List.append_nil]

/-- Whatever topic, there is a name such that a broker that is told to create a topic of that name, whatever else is said of
it, is told, without a byte missing or left over, to create the first: with its name, partitions, replicas, assignments and
configurations (and three more configurations, which have no names).  The other topics of the request are as they were. -/
theorem C92_create {b : Broker} (hv : 0 ≤ version b .CreateTopics)
    (hflex : flexible .CreateTopics (version b .CreateTopics) = false) (hc : b.config.clientID.length < 2 ^ 15)
    (u : CreatableTopic19) (hu : u.Fits (version b .CreateTopics)) (hf : u.Full (version b .CreateTopics))
    (hl : (topicEnd (version b .CreateTopics) u).length ≤ 25000) (hn : u.Configs.elems.length < 25000)
    (t : CreatableTopic19) (ht : (topicEnd (version b .CreateTopics) t).length ≤ 7000)
    (l : List CreatableTopic19) (hll : l.length + 1 < 2 ^ 31) (hlf : ∀ x ∈ l, x.Fits (version b .CreateTopics))
    (hlu : ∀ x ∈ l, x.Full (version b .CreateTopics)) (tm : Int32) (vo : Bool) :
    ∃ (s : GoString) (fs : List CreateableTopicConfig19), (∀ c ∈ fs, c.Name = []) ∧ ∀ id : Int32,
      Means .CreateTopics (written b .CreateTopics ({ Topics := some ({ t with Name := s } :: l), timeoutMs := tm, validateOnly := vo } : CreateTopicsRequest) id)
        (version b .CreateTopics)
        (CreateTopicsRequest.val { Topics := some ({ u with Configs := some (u.Configs.elems ++ fs) } :: l), timeoutMs := tm, validateOnly := vo }) := by
  obtain ⟨z, W, hW, hz, hw⟩ := fillers_wire (version b .CreateTopics) u (topicEnd (version b .CreateTopics) t) hl
  refine ⟨u.Name ++ W, fillers z (topicEnd (version b .CreateTopics) t), ?_, fun id => ?_⟩
  · intro c h
    simp only [fillers, List.mem_cons, List.not_mem_nil, or_false] at h
    rcases h with rfl | rfl | rfl <;> rfl
  have h0 : FitsString [] := by show 0 < 2 ^ 15; decide
  have hw' : CreatableTopic19.wire (version b .CreateTopics) { t with Name := u.Name ++ W } =
      CreatableTopic19.wire (version b .CreateTopics)
        { u with Configs := some (u.Configs.elems ++ fillers z (topicEnd (version b .CreateTopics) t)) } := by
    rw [topic_wire, topic_wire, hw]
    show Wire.string (u.Name ++ W) ++ _ = Wire.string u.Name ++ (W ++ _)
    rw [string_wrap _ _ hW, List.append_assoc]
    rfl
  refine (begins_of (a := .CreateTopics) (req' := ({ Topics := some ({ u with Configs := some (u.Configs.elems ++ fillers z (topicEnd (version b .CreateTopics) t)) } :: l), timeoutMs := tm, validateOnly := vo } : CreateTopicsRequest))
    b.config.clientID [] hv hflex (by simp) (by simp) ⟨⟨hll, ?_⟩⟩ ⟨?_⟩ hc ?_).2 rfl
  · intro x hx
    rcases List.mem_cons.1 hx with rfl | hx
    · refine ⟨hu.Name, hu.Assignments, ?_, fun c hc' => ?_⟩
      · show (u.Configs.elems ++ fillers z _).length < 2 ^ 31
        simp only [List.length_append, fillers, List.length_cons, List.length_nil]
        omega
      · rcases List.mem_append.1 hc' with h | h
        · exact hu.Configs.2 c h
        · simp only [fillers, List.mem_cons, List.not_mem_nil, or_false] at h
          rcases h with rfl | rfl | rfl
          · exact ⟨h0, by show (List.replicate 20000 (0 : Byte)).length < _; rw [List.length_replicate]; decide⟩
          · exact ⟨h0, by show (List.replicate 20000 (0 : Byte)).length < _; rw [List.length_replicate]; decide⟩
          · refine ⟨h0, ?_⟩
            show (z ++ topicEnd (version b .CreateTopics) t).length < _
            rw [List.length_append]
            have : (4 : Nat) ≤ (topicEnd (version b .CreateTopics) u).length := by
              simp only [topicEnd, List.length_append, int32_len]; omega
            omega
    · exact hlf x hx
  · intro x hx
    rcases List.mem_cons.1 hx with rfl | hx
    · exact ⟨hf.Assignments⟩
    · exact hlu x hx
  · rw [List.append_nil]
    congr 1
    show CreateTopicsRequest.wire (version b .CreateTopics) _ = CreateTopicsRequest.wire (version b .CreateTopics) _
    simp only [CreateTopicsRequest.wire, Wire.array]
    congr 3
    show CreatableTopic19.wire _ _ ++ _ = CreatableTopic19.wire _ _ ++ _
    rw [hw']

/-- The claim is false: asked to delete the topic of some name, a broker deletes "a". -/
theorem C92_fails : ¬C92_statement := by
  intro h
  let b : Broker := { apiVersion := { DeleteTopics := 1 }, config := {} }
  obtain ⟨s, hs⟩ := C92_delete (b := b) (by decide) (by decide) (by decide) (goString "a") [] (by decide) 0 (by decide) (by decide)
  have h1 := h b .DeleteTopics _ 0 _ _ _ (by simp) (by decide) (hs [] 1 0 rfl)
  have h2 : Val.int32 0 = Val.int32 1 := by
    have := h1.2.2
    injection this with _ h3
    injection h3 with h4 _
    exact (Prod.mk.inj h4).2
  exact absurd (Val.int32.inj h2) (by decide)

/-! ## Cases that meet the hypotheses -/

/-- A request that is no message of the protocol: a name of 32768 bytes. -/
theorem long_name (b : Broker) (h : version b .DeleteTopics = 1) (s : GoString) (hs : s.length = 32768) :
    ¬(Protocol.request .DeleteTopics).Valid true (version b .DeleteTopics)
      ((Api.DeleteTopics).reqVal ({ TopicNames := some [s] } : DeleteTopicsRequest)) := by
  intro hv
  rw [h] at hv
  have h1 := hv.1 (by decide)
  have h2 := h1.2 (.str (some s)) (by simp)
  have h3 : s.length < 2 ^ 15 := h2
  omega

/-- "a" is deleted in place of a topic with a name of 65537 bytes. -/
example : ∃ s : GoString, ∀ id, Begins .DeleteTopics
    (written { apiVersion := { DeleteTopics := 1 }, config := {} } .DeleteTopics
      ({ TopicNames := some [s], TimeoutMs := 1000 } : DeleteTopicsRequest) id) 1
    (DeleteTopicsRequest.val { TopicNames := some [goString "a"], TimeoutMs := 7 }) := by
  obtain ⟨s, hs⟩ := C92_delete (b := { apiVersion := { DeleteTopics := 1 }, config := {} }) (by decide) (by decide) (by decide)
    (goString "a") [] (by decide) 7 (by decide) (by decide)
  exact ⟨s, fun id => hs [] 1000 id rfl⟩

/-- A topic "a" is created with a configuration the caller has not asked for, in place of one with 3 partitions. -/
example : ∃ (s : GoString) (fs : List CreateableTopicConfig19), (∀ c ∈ fs, c.Name = []) ∧ ∀ id, Means .CreateTopics
    (written { apiVersion := { CreateTopics := 2 }, config := {} } .CreateTopics
      ({ Topics := some [{ Name := s, NumPartitions := 3, ReplicationFactor := 2 }], timeoutMs := 1000, validateOnly := true } : CreateTopicsRequest) id) 2
    (CreateTopicsRequest.val { Topics := some [{ Name := goString "a", NumPartitions := 1, ReplicationFactor := 1, Configs := some (({ Name := goString "k", Value := goString "v" } : CreateableTopicConfig19) :: fs) }], timeoutMs := 1000, validateOnly := true }) := by
  have h := C92_create (b := { apiVersion := { CreateTopics := 2 }, config := {} }) (by decide) (by decide) (by decide)
    { Name := goString "a", NumPartitions := 1, ReplicationFactor := 1, Configs := some [{ Name := goString "k", Value := goString "v" }] }
    ⟨by unfold FitsString; decide, ⟨by unfold FitsSlice; decide, by simp [Slice.elems]⟩,
      by unfold FitsSlice; decide, by
        intro x hx
        rw [List.mem_singleton.1 hx]
        exact ⟨by unfold FitsString; decide, by unfold FitsString; decide⟩⟩ ⟨by simp [Protocol.FullAll, Slice.elems]⟩ (by decide) (by decide)
    { NumPartitions := 3, ReplicationFactor := 2 } (by decide) [] (by decide) (by simp) (by simp) 1000 true
  exact h

/-- The coordinator of the transaction "other" is asked for in place of that of a group. -/
example : ∃ s : GoString, ∀ id, Begins .FindCoordinator
    (written { apiVersion := { FindCoordinator := 1 }, config := {} } .FindCoordinator
      ({ Key := s, KeyType := 0 } : FindCoordinatorRequest) id) 1
    (FindCoordinatorRequest.val { Key := goString "other", KeyType := 1 }) := by
  obtain ⟨s, hs⟩ := C92_coordinator (b := { apiVersion := { FindCoordinator := 1 }, config := {} }) (by decide) (by decide)
    (by decide) (goString "other") (by decide) 1
  exact ⟨s, fun id => hs 0 id⟩

/-- The hypotheses of `C92_partial`: a DeleteTopics request for "a" and "b". -/
example : (Protocol.request .DeleteTopics).Valid true 1
    ((Api.DeleteTopics).reqVal ({ TopicNames := some [goString "a", goString "b"] } : DeleteTopicsRequest)) :=
  Api.req_valid .DeleteTopics 1 (by decide) (by simp) _
    ⟨by unfold FitsSlice; decide, by intro x hx; simp [Slice.elems] at hx; rcases hx with rfl | rfl <;> (unfold FitsString; decide)⟩
    ⟨by intro h; cases h⟩

end Kafka.Props
