import Verif.Props.Protocol
/-!
Property C60: what an API method does with any bytes at all in place of a reply, and which methods a broker can
crash; and, for C10, exactly when a reading operation panics.

The specification is `Protocol.Fields.message` (Verif/Protocol/Parse.lean): how a reader of the protocol's schemas
goes over bytes, to a value, to the end of the bytes, or to a length that cannot be.
-/
namespace Kafka.Props

open Protocol (Parsed Val Fields flexible parse16 parse32)

/-! ### C60 -/

/-- The names of the fields of one structure are different, in all replies. -/
theorem response_distinct (a : Api) : (Protocol.response a).distinct = true := by cases a <;> decide +kernel

/-- What a method does with the bytes after the id of a reply, whatever they are. -/
theorem C60_outcome (b : Broker) (a : Api) (req : a.req.T) (d : Decoder) (hd : d.Valid)
    (hv : 0 ≤ version b a) (hct : a = .CreateTopics → version b a < 5) :
    match (Protocol.response a).message (version b a) d.rest with
    | .ok x n => ∃ r, (b.call a req).decode d = .ok r (d.skip n) ∧ n ≤ d.rest.length ∧
        (Protocol.response a).shows (version b a) x (a.respVal r) = true
    | .short => ∃ d', (b.call a req).decode d = .err .shortBuffer d'
    | .bad => (b.call a req).decode d = .panic := by
  rw [C19_response]
  have h := a.resp_parses (version b a) hv hct d hd
  split
  · next x n e =>
    rw [e] at h
    refine ⟨_, h.2, h.1, a.resp_shown _ hv hct x ?_⟩
    have ht := (Protocol.Ty.struct (Protocol.response a)).parse_typed (version b a)
      (by rw [Protocol.Ty.distinct]; exact response_distinct a) _ _ _ e
    rwa [Protocol.Ty.Typed] at ht
  · next e => rw [e] at h; exact h
  · next e => rw [e] at h; exact h

/-- The outcomes, one by one: a method returns without error exactly if there is a message at the beginning of the
bytes, fails exactly if they end too early, and panics exactly if there is a length that cannot be. -/
theorem C60_returns (b : Broker) (a : Api) (req : a.req.T) (d : Decoder) (hd : d.Valid)
    (hv : 0 ≤ version b a) (hct : a = .CreateTopics → version b a < 5) :
    (∃ r d', (b.call a req).decode d = .ok r d') ↔
      ∃ x n, (Protocol.response a).message (version b a) d.rest = .ok x n := by
  have h := C60_outcome b a req d hd hv hct
  revert h
  cases (Protocol.response a).message (version b a) d.rest <;> intro h
  · obtain ⟨r, h, _⟩ := h; simp [h]
  · obtain ⟨d', h⟩ := h; simp [h]
  · simp only at h; simp [h]

theorem C60_fails (b : Broker) (a : Api) (req : a.req.T) (d : Decoder) (hd : d.Valid)
    (hv : 0 ≤ version b a) (hct : a = .CreateTopics → version b a < 5) :
    (∃ e d', (b.call a req).decode d = .err e d') ↔ (Protocol.response a).message (version b a) d.rest = .short := by
  have h := C60_outcome b a req d hd hv hct
  revert h
  cases (Protocol.response a).message (version b a) d.rest <;> intro h
  · obtain ⟨r, h, _⟩ := h; simp [h]
  · obtain ⟨d', h⟩ := h; simp [h]
  · simp only at h; simp [h]

theorem C60_panics (b : Broker) (a : Api) (req : a.req.T) (d : Decoder) (hd : d.Valid)
    (hv : 0 ≤ version b a) (hct : a = .CreateTopics → version b a < 5) :
    (b.call a req).decode d = .panic ↔ (Protocol.response a).message (version b a) d.rest = .bad := by
  have h := C60_outcome b a req d hd hv hct
  revert h
  cases (Protocol.response a).message (version b a) d.rest <;> intro h
  · obtain ⟨r, h, _⟩ := h; simp [h]
  · obtain ⟨d', h⟩ := h; simp [h]
  · simp only at h; simp [h]

/-- The specification reads what the protocol writes: from the bytes of a valid message without null byte strings it
comes to a value with the same bytes, and to the end of the message. -/
theorem reads_protocol (a : Api) (v : Int16) (x : Val) (hx : (Protocol.response a).Valid false v x)
    (tail : List Byte) :
    ∃ y, (Protocol.response a).message v ((Protocol.response a).wire false v x ++ tail) =
        .ok y ((Protocol.response a).wire false v x).length ∧
      (Protocol.response a).wire false v y = (Protocol.response a).wire false v x := by
  obtain ⟨l, h1, h2⟩ := (Protocol.response a).parse_wire v x (response_distinct a) hx tail
  refine ⟨.struct l, ?_, h2⟩
  rw [Fields.message, Protocol.Ty.parse]
  simp only [h1, Parsed.next, Parsed.value, Nat.add_zero]

/-- Some bytes after which every decoder is at a length that cannot be. -/
theorem C60_crash_bytes (b : Broker) (a : Api) (req : a.req.T) (hv : 0 ≤ version b a)
    (hct : a = .CreateTopics → version b a < 5) (hs : (Protocol.response a).safe (version b a) = false) :
    ∃ bs, bs.length < 200 ∧ ∀ (d : Decoder) (tail : List Byte), d.Valid → d.rest = bs ++ tail →
      (b.call a req).decode d = .panic := by
  obtain ⟨bs, hw, h⟩ := (Protocol.Ty.struct (Protocol.response a)).unsafe_parse (version b a)
    (by rw [Protocol.Ty.safe]; exact hs)
  refine ⟨bs, ?_, fun d tail hd e => ?_⟩
  · rw [Protocol.Ty.weight] at hw
    have : (Protocol.response a).weight < 200 := by cases a <;> decide +kernel
    omega
  · rw [C60_panics b a req d hd hv hct, Fields.message, e]
    exact h tail

/-- The methods that no bytes whatever can crash are those whose replies have no strings, byte strings or arrays of
scalars; a broker can crash all the others, with a reply of less than 204 bytes and any id. -/
theorem C60_immune (b : Broker) (a : Api) (req : a.req.T) (hv : 0 ≤ version b a)
    (hct : a = .CreateTopics → version b a < 5) :
    (∀ d, d.Valid → (b.call a req).decode d ≠ .panic) ↔ (Protocol.response a).safe (version b a) = true := by
  constructor
  · intro h
    refine (Bool.eq_false_or_eq_true _).resolve_right fun hs => ?_
    obtain ⟨bs, hl, hb⟩ := C60_crash_bytes b a req hv hct hs
    have hl' : ([0, 0, 0, 0] ++ bs : List Byte).length < 2 ^ 62 := by simp; omega
    have hd := given_holds _ hl'
    refine h _ (hd.valid (by simp)) (hb _ [] (hd.valid (by simp)) ?_)
    rw [hd.rest]; simp
  · intro hs d hd h
    rw [C60_panics b a req d hd hv hct, Fields.message] at h
    exact (Protocol.Ty.struct (Protocol.response a)).safe_parse (version b a)
      (by rw [Protocol.Ty.safe]; exact hs) _ h

/-- They are these. -/
theorem C60_immune_list (b : Broker) (a : Api) (req : a.req.T) (hv : 0 ≤ version b a)
    (hmax : (version b a).toInt ≤ a.protocolMax) (hct : a = .CreateTopics → version b a < 5) :
    (∀ d, d.Valid → (b.call a req).decode d ≠ .panic) ↔
      a ∈ [Api.UpdateMetadata, .Heartbeat, .ApiVersions, .InitProducerId, .AddOffsetsToTxn, .EndTxn,
        .RenewDelegationToken, .ExpireDelegationToken] ∨ a = .LeaveGroup ∧ version b a < 3 := by
  rw [C60_immune b a req hv hct]
  obtain ⟨n, hn, e⟩ := upTo hv hmax
  rw [e]
  have h : ∀ a : Api, ∀ n ≤ a.protocolMax, (Protocol.response a).safe (Int16.ofNat n) = true ↔
      a ∈ [Api.UpdateMetadata, .Heartbeat, .ApiVersions, .InitProducerId, .AddOffsetsToTxn, .EndTxn,
        .RenewDelegationToken, .ExpireDelegationToken] ∨ a = .LeaveGroup ∧ Int16.ofNat n < 3 := by
    intro a; cases a <;> decide +kernel
  exact h a n hn

/-! Examples: a Heartbeat reply at version 1; the same without its last byte; a FindCoordinator reply at version 0
with a host of length -2; a DeleteTopics reply with topics of length -5, which is read as no topics. -/

example : ∃ b : Broker, version b .Heartbeat = 1 ∧ (given [0, 0, 0, 1, 0, 0, 0, 7, 0, 16, 9]).Valid ∧
    (given [0, 0, 0, 1, 0, 0, 0, 7, 0, 16, 9]).rest = [0, 0, 0, 7, 0, 16, 9] :=
  ⟨{ apiVersion := { Heartbeat := 1 }, config := {} }, rfl, ⟨by decide, by decide, by decide, by decide⟩, rfl⟩
example : (Protocol.response .Heartbeat).message 1 [0, 0, 0, 7, 0, 16, 9] =
    .ok (.struct [("ThrottleTimeMs", .int32 7), ("ErrorCode", .int16 16)]) 6 := rfl
example : (Protocol.response .Heartbeat).message 1 [0, 0, 0, 7, 0] = .short := rfl
example : (Protocol.response .FindCoordinator).message 0 [0, 0, 0, 0, 0, 0, 0xFF, 0xFE] = .bad := rfl
example : (Protocol.response .DeleteTopics).message 0 [0xFF, 0xFF, 0xFF, 0xFB] =
    .ok (.struct [("Responses", .arr none)]) 4 := rfl

/-! ### C10 -/

/-- A reading operation panics exactly if what it reads is bad. -/
theorem parses_panic {α β : Type} {m : Dec α} {p : List Byte → Parsed β} {g : β → α} (h : Protocol.Parses m p g)
    (d : Decoder) (hd : d.Valid) : m d = .panic ↔ p d.rest = .bad := by
  have h := h d hd
  cases e : p d.rest <;> rw [e] at h
  · simp [h.2]
  · obtain ⟨d', h⟩ := h; simp [h]
  · have h : m d = .panic := h
    simp [h]

theorem parse16_cases (bs : List Byte) : parse16 bs = .short ∨ ∃ n, parse16 bs = .ok n 2 := by
  unfold parse16 Parsed.fixed; split <;> simp
theorem parse32_cases (bs : List Byte) : parse32 bs = .short ∨ ∃ n, parse32 bs = .ok n 4 := by
  unfold parse32 Parsed.fixed; split <;> simp

theorem next_bad_iff {α β : Type} {x : α} {n : Nat} {bs : List Byte} {q : α → List Byte → Parsed β} :
    (Parsed.ok x n).next bs q = .bad ↔ q x (bs.drop n) = .bad := by
  simp only [Parsed.next]
  cases q x (bs.drop n) <;> simp

/-- A string panics exactly if its length is below -1. -/
theorem C10_string_iff (d : Decoder) (hd : d.Valid) :
    Dec.string d = .panic ↔ ∃ n, parse16 d.rest = .ok n 2 ∧ n.toInt < -1 := by
  rw [parses_panic (Protocol.par_string (v := 0)) d hd, Protocol.Ty.parse]
  rcases parse16_cases d.rest with h | ⟨n, h⟩
  · simp [h, Parsed.next]
  · simp only [h, next_bad_iff, Parsed.ok.injEq, and_true, exists_eq_left']
    split
    · simp [Parsed.value]; omega
    · split
      · simp; omega
      · simp [Protocol.fixed_ne_bad]; omega

/-- A byte string panics exactly if its length is negative. -/
theorem C10_bytes_iff (d : Decoder) (hd : d.Valid) :
    Dec.bytes d = .panic ↔ ∃ n, parse32 d.rest = .ok n 4 ∧ n.toInt < 0 := by
  rw [parses_panic (Protocol.par_bytes (v := 0)) d hd, Protocol.Ty.parse]
  rcases parse32_cases d.rest with h | ⟨n, h⟩
  · simp [h, Parsed.next]
  · simp only [h, next_bad_iff, Parsed.ok.injEq, and_true, exists_eq_left']
    split
    · simp; omega
    · simp [Protocol.fixed_ne_bad]; omega

/-- An array of numbers panics exactly if its length is below -1. -/
theorem array_iff {α : Type} {m : Dec (Slice α)} {g : Val → Slice α} (t : Protocol.Ty)
    (h : Protocol.Parses m ((Protocol.Ty.array t).parse 0) g) (hs : t.isStruct = false) (hf : t.safe 0 = true)
    (d : Decoder) (hd : d.Valid) : m d = .panic ↔ ∃ n, parse32 d.rest = .ok n 4 ∧ n.toInt < -1 := by
  rw [parses_panic h d hd, Protocol.Ty.parse]
  rcases parse32_cases d.rest with h | ⟨n, h⟩
  · simp [h, Parsed.next]
  · simp only [h, next_bad_iff, Parsed.ok.injEq, and_true, exists_eq_left', hs]
    have ht := fun k bs => Protocol.times_ne_bad (t.safe_parse 0 hf) k bs
    by_cases h1 : n.toInt = -1
    · simp [h1, Parsed.value]
    · by_cases h2 : n.toInt < 0
      · simp [h1, h2]; omega
      · have := Protocol.next_ne_bad (ht n.toInt.toNat (d.rest.drop 4)) (bs := d.rest.drop 4)
          (q := fun xs _ => Parsed.value (Val.arr (some xs))) (by simp [Parsed.value])
        simp only [h1, h2, false_and, or_self, if_false]
        exact ⟨fun h => absurd h this, fun h => by omega⟩

theorem C10_int32Array_iff (d : Decoder) (hd : d.Valid) :
    Dec.int32Array d = .panic ↔ ∃ n, parse32 d.rest = .ok n 4 ∧ n.toInt < -1 :=
  array_iff .int32 Protocol.par_int32Array rfl rfl d hd
theorem C10_int64Array_iff (d : Decoder) (hd : d.Valid) :
    Dec.int64Array d = .panic ↔ ∃ n, parse32 d.rest = .ok n 4 ∧ n.toInt < -1 :=
  array_iff .int64 Protocol.par_int64Array rfl rfl d hd

/-- Lengths as in the hypotheses: -2 and -1 for a string. -/
example : parse16 [0xFF, 0xFE] = .ok (-2) 2 ∧ parse16 [0xFF, 0xFF] = .ok (-1) 2 := ⟨rfl, rfl⟩

end Kafka.Props
