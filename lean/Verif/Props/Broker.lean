import Verif.Broker.FrameLemmas
import Verif.Broker.NegotiateLemmas
import Verif.Broker.Protocol
/-!
Properties C18 to C24: the requests sent by the 48 API methods and version negotiation.

`b.call a req` is what the method of `Broker` for the API `a` passes to `Conn.Do`: `encode`
writes the request for a correlation id, `decode` reads the response body.
-/
namespace Kafka.Props

open Msg (ApiVersionsResponseKey18)

/-- The version of an API in the broker's negotiated table. -/
abbrev version (b : Broker) (a : Api) : Int16 := b.apiVersion.get a

/-- The request body of a call. -/
abbrev body (b : Broker) (a : Api) (req : a.req.T) : List Byte :=
  bytesOf (a.req.encode (version b a) req)

/-- What a call writes. -/
abbrev written (b : Broker) (a : Api) (req : a.req.T) (id : Int32) : List Byte :=
  bytesOf ((b.call a req).encode id)

theorem body_eq (b : Broker) (a : Api) (req : a.req.T) :
    body b a req = a.reqLayout.wire (version b a) req :=
  (a.req_lawful.emits _ _).bytesOf

/-! ### C18 -/

/-- Every call writes an int32 equal to the number of bytes that follow, then api key, api
version, correlation id, client id (with its length) and the request body at that version. -/
theorem C18_frame (b : Broker) (a : Api) (req : a.req.T) (id : Int32)
    (h : (written b a req id).length < 2 ^ 31) :
    ∃ (n : Int32) (payload : List Byte),
      written b a req id = Wire.int32 n ++ payload ∧
      n.toInt = payload.length ∧
      payload = Wire.int16 a.key ++ Wire.int16 (version b a) ++ Wire.int32 id ++
        (Wire.int16 (Int16.ofNat b.config.clientID.length) ++ b.config.clientID) ++ body b a req := by
  have hw := (call_emits b a req id).bytesOf
  rw [← body_eq b a req] at hw
  refine ⟨_, _, hw, ?_, rfl⟩
  rw [ofNat_toInt32]
  have : (written b a req id).length = _ := congrArg List.length hw
  rw [Wire.frame, List.length_append] at this
  omega

/-- The frame does not depend on how much was written before, nor on anything but the
request: whatever the encoder wrote so far, a call appends exactly its frame. -/
theorem C18_appended (b : Broker) (a : Api) (req : a.req.T) (id : Int32) :
    Emits ((b.call a req).encode id) (written b a req id) := by
  have h := call_emits b a req id
  rw [← h.bytesOf] at h
  exact h

/-- A FindCoordinator call at version 1 with correlation id 7. -/
example : written { apiVersion := { FindCoordinator := 1 }, config := { clientID := goString "id" } }
      .FindCoordinator ({ Key := goString "g", KeyType := 1 } : Msg.FindCoordinatorRequest) 7 =
    [0, 0, 0, 16, 0, 10, 0, 1, 0, 0, 0, 7, 0, 2, 0x69, 0x64, 0, 1, 0x67, 1] := by decide

/-! ### C19 -/

/-- A broker finds in the frame of a call the protocol's key of the API and the negotiated
version. -/
theorem C19_header (b : Broker) (a : Api) (req : a.req.T) (id : Int32)
    (h : (written b a req id).length < 2 ^ 31) (hc : b.config.clientID.length < 2 ^ 15) :
    ∃ payload, Wire.splitFrames (written b a req id) = some [payload] ∧
      Wire.parseRequest payload = some
        { key := a.protocolKey, version := (version b a).toInt, correlationId := id.toInt,
          clientId := b.config.clientID, body := body b a req } := by
  have hw := (call_emits b a req id).bytesOf
  rw [← body_eq b a req] at hw
  refine ⟨Wire.requestPayload a.key (version b a) id b.config.clientID (body b a req), ?_, ?_⟩
  · rw [written, hw]
    have := splitFrames_flatMap (ps := [Wire.requestPayload a.key (version b a) id b.config.clientID
      (body b a req)]) (by
        intro p hp
        rw [List.mem_singleton] at hp
        subst hp
        have : (written b a req id).length = _ := congrArg List.length hw
        rw [Wire.frame, List.length_append] at this
        dsimp only [version]
        omega)
    rwa [List.flatMap_cons, List.flatMap_nil, List.append_nil] at this
  · rw [parse_payload _ _ _ hc]
    have : a.key.toInt = (a.protocolKey : Int) := by cases a <;> rfl
    rw [this]

/-- The response is decoded, from a zero value of the API's response type, at the version
the request was sent with. -/
theorem C19_response (b : Broker) (a : Api) (req : a.req.T) :
    (b.call a req).decode = a.resp.decode (version b a) a.resp.zero := by
  rw [call_eq]; rfl

theorem protocolKey_inj (a a' : Api) (h : a.protocolKey = a'.protocolKey) : a = a' := by
  apply Api.key_inj
  have h1 : a.key = Int16.ofNat a.protocolKey := by cases a <;> rfl
  have h2 : a'.key = Int16.ofNat a'.protocolKey := by cases a' <;> rfl
  rw [h1, h2, h]

/-- No two methods send the same key: the two bytes behind the length are different, whatever else is in the requests. -/
theorem C19_distinct (b b' : Broker) (a a' : Api) (req : a.req.T) (req' : a'.req.T) (id id' : Int32)
    (h : ((written b a req id).drop 4).take 2 = ((written b' a' req' id').drop 4).take 2) : a = a' := by
  have e : ∀ (b : Broker) (a : Api) (req : a.req.T) (id : Int32), ((written b a req id).drop 4).take 2 = Wire.int16 a.key := by
    intro b a req id
    have hw := (call_emits b a req id).bytesOf
    have n16 : (Wire.int16 a.key).length = 2 := by simp [Wire.int16, Wire.bigEndian]
    have n32 : ∀ i, (Wire.int32 i).length = 4 := fun i => by simp [Wire.int32, Wire.bigEndian]
    rw [written, hw]
    unfold Wire.frame Wire.requestPayload
    simp only [List.append_assoc]
    rw [List.drop_left' (n32 _), List.take_left' n16]
  rw [e, e] at h
  apply Api.key_inj
  obtain ⟨k, l, h1, h2⟩ := readInt16_int16 a.key
  obtain ⟨k', l', h3, h4⟩ := readInt16_int16 a'.key
  rw [h1, h3] at h
  injection h with hk hl
  injection hl with hl
  rw [← Int16.toInt_inj, ← h2, ← h4, hk, hl]

example : (Api.OffsetDelete).protocolKey = 47 := rfl

/-! ### C20 -/

/-- A call and its correlation id. -/
structure Sent where
  api : Api
  req : api.req.T
  id : Int32

/-- What a broker recovers for a sent request. -/
def Sent.parsed (b : Broker) (s : Sent) : Wire.ParsedRequest :=
  { key := s.api.protocolKey, version := (version b s.api).toInt, correlationId := s.id.toInt,
    clientId := b.config.clientID, body := body b s.api s.req }

/-- The bytes of any sequence of requests split into exactly one payload per request, in
order, each parsing to the header fields and the body of that request. -/
theorem C20_stream (b : Broker) (hc : b.config.clientID.length < 2 ^ 15) (ss : List Sent)
    (h : ∀ s ∈ ss, (written b s.api s.req s.id).length < 2 ^ 31) :
    ∃ payloads, Wire.splitFrames (ss.flatMap fun s => written b s.api s.req s.id) = some payloads ∧
      payloads.map Wire.parseRequest = ss.map fun s => some (s.parsed b) := by
  refine ⟨ss.map fun s => Wire.requestPayload s.api.key (version b s.api) s.id b.config.clientID
      (body b s.api s.req), ?_, ?_⟩
  · rw [← splitFrames_flatMap, List.flatMap_map]
    · congr 1
      rw [List.flatMap, List.flatMap]
      congr 1
      apply List.map_congr_left
      intro s _
      rw [body_eq]
      exact (call_emits b s.api s.req s.id).bytesOf
    · intro p hp
      obtain ⟨s, hs, rfl⟩ := List.mem_map.1 hp
      have h1 := (call_emits b s.api s.req s.id).bytesOf
      rw [← body_eq] at h1
      have h2 : (written b s.api s.req s.id).length = _ := congrArg List.length h1
      have h3 := h s hs
      rw [h2, Wire.frame, List.length_append] at h3
      dsimp only [version]
      omega
  · rw [List.map_map]
    apply List.map_congr_left
    intro s _
    dsimp only [Function.comp]
    rw [parse_payload _ _ _ hc, Sent.parsed]
    have : s.api.key.toInt = (s.api.protocolKey : Int) := by cases s.api <;> rfl
    rw [this]

/-- The body recovered determines the request: decoding it at the version in the header
gives back the request that was sent. -/
theorem C20_body (b : Broker) (a : Api) (req : a.req.T)
    (hf : a.reqLayout.Fits (version b a) req) (hcan : a.reqLayout.Canon (version b a) req)
    (hsmall : (body b a req).length < 2 ^ 62) :
    a.req.decode (version b a) a.req.zero (newDecoder (body b a req) (body b a req).length) =
      .ok req ((newDecoder (body b a req) (body b a req).length).skip (body b a req).length) := by
  have h := a.req_lawful
  have h1 := (h.reads (version b a) req hf a.req.zero).1 _ (newDecoder_valid hsmall) []
    (by rw [newDecoder_rest, List.append_nil, body_eq])
  rw [h.canon _ _ hcan, ← body_eq] at h1
  exact h1

/-- Two requests on one connection. -/
def sampleStream : List Sent :=
  [⟨.FindCoordinator, ({ Key := goString "g" } : Msg.FindCoordinatorRequest), 1⟩,
   ⟨.Metadata, ({ Topics := some [{ Name := goString "t" }] } : Msg.MetadataRequest), 2⟩]

def sampleBroker : Broker := { apiVersion := { FindCoordinator := 1, Metadata := 4 }, config := buildConfig [] }

example : sampleBroker.config.clientID.length < 2 ^ 15 ∧
    ∀ s ∈ sampleStream, (written sampleBroker s.api s.req s.id).length < 2 ^ 31 := by
  refine ⟨by decide, ?_⟩
  intro s hs
  simp only [sampleStream, List.mem_cons, List.not_mem_nil, or_false] at hs
  rcases hs with rfl | rfl <;> decide

/-! ### C21 -/

/-- A version lies in the range the broker advertises for an API and in the library's. -/
def Common (k : ApiVersionsResponseKey18) (a : Api) (v : Int16) : Prop :=
  k.MinVersion.toInt ≤ v.toInt ∧ v.toInt ≤ k.MaxVersion.toInt ∧ 0 ≤ v.toInt ∧ v.toInt ≤ a.protocolMax

theorem maxVersion_protocol (a : Api) : a.maxVersion.toInt = (a.protocolMax : Int) := by
  cases a <;> rfl

theorem accepts_iff (k : ApiVersionsResponseKey18) (a : Api) :
    Accepts k a.maxVersion ↔ Common k a k.MaxVersion := by
  unfold Accepts Common
  rw [Int16.le_iff_toInt_le, Int16.le_iff_toInt_le, Int16.le_iff_toInt_le, maxVersion_protocol]
  exact ⟨fun ⟨h1, h2, h3⟩ => ⟨h1, Int.le_refl _, h2, h3⟩, fun ⟨h1, _, h2, h3⟩ => ⟨h1, h2, h3⟩⟩

theorem negotiates_accepted {ks : Slice ApiVersionsResponseKey18} {av : ApiVersion}
    (h : Negotiates ks (.ok av)) : AllAccepted ks.elems := by
  rcases accepted_or_rejected ks.elems with h' | ⟨k, a, hr⟩
  · exact h'
  · exfalso
    by_cases hm : k.MinVersion = -32768
    · obtain ⟨f, hf⟩ := h
      rw [negotiateApiVersions, negotiateLoop_hangs hr hm] at hf
      simp at hf
    · have h2 : Negotiates ks (.error ⟨k.ApiKey⟩) := ⟨0 + 65537, negotiateLoop_rejected hr hm 0 _⟩
      have := h.unique h2
      simp at this

theorem negotiates_get {ks : Slice ApiVersionsResponseKey18} {av : ApiVersion}
    (h : Negotiates ks (.ok av)) (a : Api) : av.get a = versionFrom ks.elems a 0 := by
  obtain ⟨av', h1, h2⟩ := negotiateLoop_accepted (negotiates_accepted h) 0 {}
  have : Negotiates ks (.ok av') := ⟨_, h1⟩
  have := h.unique this
  injection this with this
  subst this
  rw [h2]
  cases a <;> rfl

theorem lastEntry_split {p s : List ApiVersionsResponseKey18} {k : ApiVersionsResponseKey18} {a : Api}
    (hk : k.ApiKey.toInt = a.protocolKey) (hs : ∀ k' ∈ s, k'.ApiKey ≠ k.ApiKey) :
    lastEntry (p ++ k :: s) a = some k := by
  have hk' : k.ApiKey = a.key := by
    rw [← Int16.toInt_inj, hk]; cases a <;> rfl
  unfold lastEntry
  rw [List.reverse_append, List.reverse_cons, List.append_assoc, List.find?_append,
    List.find?_eq_none.2, Option.none_or]
  · simp [hk']
  · intro x hx
    have := hs x (List.mem_reverse.1 hx)
    rw [hk'] at this
    simpa using this

/-- If negotiation succeeds, the version of every advertised API lies in the range of the
broker's (last) entry for it and in the library's range, and no higher version does. -/
theorem C21_mutual (ks : Slice ApiVersionsResponseKey18) (av : ApiVersion)
    (h : Negotiates ks (.ok av)) (p s : List ApiVersionsResponseKey18)
    (k : ApiVersionsResponseKey18) (hks : ks.elems = p ++ k :: s)
    (hs : ∀ k' ∈ s, k'.ApiKey ≠ k.ApiKey) (a : Api) (hk : k.ApiKey.toInt = a.protocolKey) :
    Common k a (av.get a) ∧ ∀ v, Common k a v → v.toInt ≤ (av.get a).toInt := by
  have hk' : a.key = k.ApiKey := by
    rw [← Int16.toInt_inj, hk]; cases a <;> rfl
  have h1 : av.get a = k.MaxVersion := by
    rw [negotiates_get h, hks, versionFrom, lastEntry_split hk hs]
  have h2 := negotiates_accepted h k (by rw [hks]; simp) a hk'
  rw [h1]
  exact ⟨(accepts_iff k a).1 h2, fun v hv => hv.2.1⟩

/-- A broker that advertises Produce 3 to 7 and an unknown key. -/
def sampleKeys : Slice ApiVersionsResponseKey18 :=
  some [{ ApiKey := 0, MinVersion := 3, MaxVersion := 7 }, { ApiKey := 100, MinVersion := 0, MaxVersion := 1 }]

example : Negotiates sampleKeys (.ok { Produce := 7 }) := ⟨1, rfl⟩

/-! ### C22

Full statement: if the ranges overlap, negotiation succeeds with the highest common
version. -/

/-- It holds when the broker's highest version is one this library knows; missing: brokers
that are newer than this library for some API (see `C22_fails`). -/
theorem C22_partial (k : ApiVersionsResponseKey18) (a : Api) (hk : k.ApiKey.toInt = a.protocolKey)
    (hle : k.MaxVersion.toInt ≤ a.protocolMax)
    (hov : ∃ v, Common k a v) :
    ∃ av, Negotiates (some [k]) (.ok av) ∧ Common k a (av.get a) ∧
      ∀ v, Common k a v → v.toInt ≤ (av.get a).toInt := by
  obtain ⟨v, h1, h2, h3, h4⟩ := hov
  have hacc : Accepts k a.maxVersion := (accepts_iff k a).2
    ⟨by omega, by omega, by omega, by omega⟩
  obtain ⟨av', h5, _⟩ := negotiateLoop_accepted (ks := [k]) (by
    intro k' hk' b hb
    rw [List.mem_singleton] at hk'
    subst hk'
    have : b = a := Api.key_inj (by rw [hb, ← Int16.toInt_inj, hk]; cases a <;> rfl)
    rw [this]; exact hacc) 0 {}
  have hn : Negotiates (some [k]) (.ok av') := ⟨_, h5⟩
  exact ⟨av', hn, C21_mutual _ _ hn [] [] k rfl (by simp) a hk⟩

/-- The same for whole lists: if every known entry's highest version is one this library
knows and its range overlaps the library's, negotiation succeeds. -/
theorem C22_list_partial (ks : Slice ApiVersionsResponseKey18)
    (h : ∀ k ∈ ks.elems, ∀ a : Api, k.ApiKey.toInt = a.protocolKey →
      k.MaxVersion.toInt ≤ a.protocolMax ∧ ∃ v, Common k a v) :
    ∃ av, Negotiates ks (.ok av) := by
  obtain ⟨av', h5, _⟩ := negotiateLoop_accepted (ks := ks.elems) (by
    intro k hk a ha
    obtain ⟨hle, v, h1, h2, h3, h4⟩ := h k hk a (by rw [← ha]; cases a <;> rfl)
    exact (accepts_iff k a).2 ⟨by omega, by omega, by omega, by omega⟩) 0 {}
  exact ⟨av', _, h5⟩

/-- The statement is false: whenever the broker also speaks a version this library does not
know, negotiation does not succeed, although the ranges overlap. -/
theorem C22_newer_fails (k : ApiVersionsResponseKey18) (a : Api) (hk : k.ApiKey.toInt = a.protocolKey)
    (hgt : (a.protocolMax : Int) < k.MaxVersion.toInt) (av : ApiVersion) (ks : Slice ApiVersionsResponseKey18)
    (hmem : k ∈ ks.elems) : ¬ Negotiates ks (.ok av) := by
  intro h
  have h2 := negotiates_accepted h k hmem a (by rw [← Int16.toInt_inj, hk]; cases a <;> rfl)
  have := ((accepts_iff k a).1 h2).2.2.2
  omega

/-- Witness: Produce 0 to 9 against this library's 0 to 8. -/
theorem C22_fails : ∃ (k : ApiVersionsResponseKey18) (a : Api), k.ApiKey.toInt = a.protocolKey ∧
    Common k a 8 ∧ Negotiates (some [k]) (.error ⟨0⟩) :=
  ⟨{ ApiKey := 0, MinVersion := 0, MaxVersion := 9 }, .Produce, rfl,
    ⟨by decide, by decide, by decide, by decide⟩, 11, rfl⟩

example : ∃ v, Common { ApiKey := 0, MinVersion := 3, MaxVersion := 7 } .Produce v :=
  ⟨5, by decide, by decide, by decide, by decide⟩

/-! ### C23

Full statement: negotiation finishes for every list of ranges. -/

/-- It finishes if no advertised lower end is -32768 (as none is in practice). -/
theorem C23_partial (ks : Slice ApiVersionsResponseKey18)
    (h : ∀ k ∈ ks.elems, k.MinVersion ≠ -32768) : ∃ r, Negotiates ks r := by
  rcases accepted_or_rejected ks.elems with h' | ⟨k, a, hr⟩
  · obtain ⟨av', h5, _⟩ := negotiateLoop_accepted h' 0 {}
    exact ⟨_, _, h5⟩
  · refine ⟨_, 0 + 65537, negotiateLoop_rejected hr (h k ?_) 0 _⟩
    obtain ⟨p, s, hps, _⟩ := hr.split
    rw [hps]; simp

/-- It does not finish exactly if the first entry that is not acceptable has the lower end
-32768. -/
theorem C23_exact (ks : Slice ApiVersionsResponseKey18) :
    NegotiateHangs ks ↔ ∃ (p : List ApiVersionsResponseKey18) (k : ApiVersionsResponseKey18)
      (s : List ApiVersionsResponseKey18) (a : Api), ks.elems = p ++ k :: s ∧
      (∀ k' ∈ p, ∀ a' : Api, k'.ApiKey.toInt = a'.protocolKey → Common k' a' k'.MaxVersion) ∧
      k.ApiKey.toInt = a.protocolKey ∧ ¬ Common k a k.MaxVersion ∧ k.MinVersion = -32768 := by
  have hkey : ∀ (a : Api) (k : ApiVersionsResponseKey18), a.key = k.ApiKey ↔ k.ApiKey.toInt = a.protocolKey := by
    intro a k
    rw [← Int16.toInt_inj]
    have : a.key.toInt = (a.protocolKey : Int) := by cases a <;> rfl
    rw [this]
    exact eq_comm
  constructor
  · intro h
    rcases accepted_or_rejected ks.elems with h' | ⟨k, a, hr⟩
    · obtain ⟨av', h5, _⟩ := negotiateLoop_accepted h' 0 {}
      have := h 1
      rw [negotiateApiVersions, h5] at this
      simp at this
    · obtain ⟨⟨p, s, h1, h2⟩, h3, h4⟩ := hr
      refine ⟨p, k, s, a, h1, ?_, (hkey a k).1 h3, fun hc => h4 ((accepts_iff k a).2 hc), ?_⟩
      · intro k' hk' a' ha'
        exact (accepts_iff k' a').1 (h2 k' hk' a' ((hkey a' k').2 ha'))
      · by_cases hm : k.MinVersion = -32768
        · exact hm
        · have h5 := negotiateLoop_rejected ⟨⟨p, s, h1, h2⟩, h3, h4⟩ hm 0 {}
          have h6 := h (0 + 65537)
          rw [negotiateApiVersions, h5] at h6
          simp at h6
  · rintro ⟨p, k, s, a, h1, h2, h3, h4, h5⟩ fuel
    refine negotiateLoop_hangs (k := k) (a := a) ⟨⟨p, s, h1, ?_⟩, (hkey a k).2 h3, fun hc => h4 ((accepts_iff k a).1 hc)⟩ h5 fuel _
    intro k' hk' a' ha'
    exact (accepts_iff k' a').2 (h2 k' hk' a' ((hkey a' k').1 ha'))

/-- The statement is false: Produce -32768 to 9. -/
theorem C23_fails : NegotiateHangs (some [{ ApiKey := 0, MinVersion := -32768, MaxVersion := 9 }]) :=
  (C23_exact _).2 ⟨[], _, [], .Produce, rfl, by simp, rfl, fun h => absurd h.2.2.2 (by decide), rfl⟩

example : ∀ k ∈ sampleKeys.elems, k.MinVersion ≠ -32768 := by
  intro k hk
  simp only [sampleKeys, Slice.elems, Option.getD_some, List.mem_cons, List.not_mem_nil, or_false] at hk
  rcases hk with rfl | rfl <;> decide

/-! ### C24 -/

/-- Entries with keys this library does not know make no difference. -/
theorem C24_unknown (p s : List ApiVersionsResponseKey18) (k : ApiVersionsResponseKey18)
    (hk : ∀ a : Api, k.ApiKey.toInt ≠ a.protocolKey) (r : Except NegotiateErr ApiVersion) :
    Negotiates (some (p ++ k :: s)) r ↔ Negotiates (some (p ++ s)) r := by
  have hu : Api.ofKey k.ApiKey = none := by
    rw [Api.ofKey_eq_none]
    intro a ha
    apply hk a
    rw [← ha]; cases a <;> rfl
  have : ∀ fuel (p : List ApiVersionsResponseKey18) av,
      negotiateLoop fuel (p ++ k :: s) av = negotiateLoop fuel (p ++ s) av := by
    intro fuel p
    induction p with
    | nil => intro av; exact negotiateLoop_cons_unknown hu
    | cons k' p ih =>
      intro av
      rw [List.cons_append, List.cons_append]
      cases hk' : Api.ofKey k'.ApiKey with
      | none => rw [negotiateLoop_cons_unknown hk', negotiateLoop_cons_unknown hk', ih]
      | some a' =>
        rw [negotiateLoop_cons_known hk', negotiateLoop_cons_known hk']
        split <;> first | rfl | apply ih
  unfold Negotiates negotiateApiVersions
  simp only [Slice.elems, Option.getD_some, this]

/-- An API without entry gets version 0. -/
theorem C24_missing (ks : Slice ApiVersionsResponseKey18) (av : ApiVersion)
    (h : Negotiates ks (.ok av)) (a : Api) (ha : ∀ k ∈ ks.elems, k.ApiKey.toInt ≠ a.protocolKey) :
    av.get a = 0 := by
  rw [negotiates_get h, versionFrom, lastEntry, List.find?_eq_none.2]
  intro k hk hc
  apply ha k (List.mem_reverse.1 hk)
  rw [beq_iff_eq.1 hc]
  cases a <;> rfl

/-- Of repeated entries the last one determines the version. -/
theorem C24_repeated (ks : Slice ApiVersionsResponseKey18) (av : ApiVersion)
    (h : Negotiates ks (.ok av)) (p s : List ApiVersionsResponseKey18)
    (k : ApiVersionsResponseKey18) (hks : ks.elems = p ++ k :: s)
    (hs : ∀ k' ∈ s, k'.ApiKey ≠ k.ApiKey) (a : Api) (hk : k.ApiKey.toInt = a.protocolKey) :
    av.get a = k.MaxVersion := by
  rw [negotiates_get h, hks, versionFrom, lastEntry_split hk hs]

/-- One entry of a known API whose range does not overlap the library's prevents success. -/
theorem C24_incompatible (ks : Slice ApiVersionsResponseKey18) (k : ApiVersionsResponseKey18)
    (hmem : k ∈ ks.elems) (a : Api) (hk : k.ApiKey.toInt = a.protocolKey) (hno : ∀ v, ¬ Common k a v)
    (av : ApiVersion) : ¬ Negotiates ks (.ok av) := fun h =>
  hno _ ((accepts_iff k a).1 (negotiates_accepted h k hmem a (by
    rw [← Int16.toInt_inj, hk]; cases a <;> rfl)))

/-- The error names the key of an entry that is not acceptable. -/
theorem C24_error (ks : Slice ApiVersionsResponseKey18) (e : NegotiateErr)
    (h : Negotiates ks (.error e)) : ∃ k ∈ ks.elems, e.key = k.ApiKey ∧
      ∃ a : Api, k.ApiKey.toInt = a.protocolKey ∧ ¬ Common k a k.MaxVersion := by
  rcases accepted_or_rejected ks.elems with h' | ⟨k, a, hr⟩
  · obtain ⟨av', h5, _⟩ := negotiateLoop_accepted h' 0 {}
    have := h.unique ⟨_, h5⟩
    simp at this
  · by_cases hm : k.MinVersion = -32768
    · obtain ⟨f, hf⟩ := h
      rw [negotiateApiVersions, negotiateLoop_hangs hr hm] at hf
      simp at hf
    · have h2 : Negotiates ks (.error ⟨k.ApiKey⟩) := ⟨0 + 65537, negotiateLoop_rejected hr hm 0 _⟩
      have h3 := h.unique h2
      injection h3 with h3
      obtain ⟨p, s, hps, _⟩ := hr.split
      refine ⟨k, by rw [hps]; simp, by rw [h3], a, ?_, fun hc => hr.bad ((accepts_iff k a).2 hc)⟩
      rw [← hr.key]; cases a <;> rfl

/-- Unknown, missing and repeated keys together. -/
example : Negotiates (some [{ ApiKey := 3, MinVersion := 0, MaxVersion := 2 }, { ApiKey := 60, MinVersion := 5, MaxVersion := 6 },
    { ApiKey := 3, MinVersion := 1, MaxVersion := 8 }]) (.ok { Metadata := 8 }) := ⟨1, rfl⟩

/-- Two entries with nothing in common. -/
example : Negotiates (some [{ ApiKey := 3, MinVersion := 0, MaxVersion := 2 }, { ApiKey := 1, MinVersion := 12, MaxVersion := 13 }])
    (.error ⟨1⟩) := ⟨3, rfl⟩

end Kafka.Props
