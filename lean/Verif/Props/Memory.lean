import Verif.Gen.AllocApi
import Verif.Props.Broker
import Verif.Protocol.Api
/-!
Property C64: the memory asked for while a reply is decoded.

`Api.decodeA` counts the elements asked for (Verif/Message/Alloc.lean); `C64_counts` says that it otherwise does what the
method does.
-/
namespace Kafka.Props

open Protocol (Fields Ty Present)

/-- The elements asked for in decoding the bytes after the id of a reply. -/
def asked (b : Broker) (a : Api) (d : Decoder) : Nat := (a.decodeA (version b a) d).2

/-- Counting aside, it is what the method does. -/
theorem C64_counts (b : Broker) (a : Api) (req : a.req.T) (d : Decoder) :
    (a.decodeA (version b a) d).1 = (b.call a req).decode d := by
  rw [C19_response]
  exact a.decodeA_erases _ d

/-- The full claim: no more elements are asked for than bytes have been received. -/
def C64_statement : Prop :=
  ∀ (b : Broker) (a : Api) (d : Decoder), d.Valid → asked b a d ≤ d.rest.length

/-- It holds of replies that are decoded without error: of the bytes of the message alone.  Missing: replies that end too
early, and those that make a method panic. -/
theorem C64_partial (b : Broker) (a : Api) (req : a.req.T) (d : Decoder) (hd : d.Valid) {r : a.resp.T} {d' : Decoder}
    (h : (b.call a req).decode d = .ok r d') : ∃ n, d' = d.skip n ∧ n ≤ d.rest.length ∧ asked b a d ≤ n := by
  have h1 := C64_counts b a req d
  have h2 := a.decodeA_within (version b a) d hd
  unfold asked
  rw [h] at h1
  rcases e : a.decodeA (version b a) d with ⟨x, n⟩
  rw [e] at h1 h2
  dsimp only at h1
  subst h1
  exact h2

/-- For all bytes: at most their number and, for each level of nested arrays, the longest array. -/
theorem C64_bound (b : Broker) (a : Api) (d : Decoder) (hd : d.Valid) :
    asked b a d ≤ d.rest.length + a.depth * (2 ^ 31 - 1) := by
  have h := a.decodeA_within (version b a) d hd
  unfold asked
  rcases e : a.decodeA (version b a) d with ⟨x, n⟩
  rw [e] at h
  cases x with
  | ok r d' => obtain ⟨c, _, h1, h2⟩ := h; dsimp only; omega
  | err e d' => exact h
  | panic => exact h

theorem depth_le (a : Api) : a.depth ≤ 3 := by cases a <;> decide

/-- The message has an array at this version, by the protocol. -/
def hasArray (v : Int16) : Fields → Bool
  | .done => false
  | .cons _ since upto _ t rest => (decide (Present v since upto) && (t matches .array _)) || hasArray v rest

/-- `n` zeros and the length of the longest array. -/
def bomb (n : Nat) : Decoder := newDecoder (List.replicate n 0 ++ [0x7f, 0xff, 0xff, 0xff]) (n + 4)

theorem bomb_valid {n : Nat} (h : n < 100) : (bomb n).Valid := by
  refine ⟨?_, ?_, ?_, ?_⟩ <;> simp [bomb, newDecoder] <;> omega

theorem bomb_rest (n : Nat) : (bomb n).rest.length = n + 4 := by
  simp only [bomb, newDecoder, Decoder.rest, List.length_drop, List.length_take, List.length_append, List.length_replicate,
    List.length_cons, List.length_nil]
  omega

theorem bomb_asks (a : Api) : ∀ v ∈ List.range (a.protocolMax + 1), hasArray (Int16.ofNat v) (Protocol.response a) = true →
    ∃ n ∈ List.range 20, 2 ^ 31 - 1 ≤ (a.decodeA (Int16.ofNat v) (bomb n)).2 := by
  cases a <;> decide +kernel

/-- A reply of at most 23 bytes makes a method ask for an array of 2147483647 elements, at every version at which the
message has an array. -/
theorem C64_array_fails {b : Broker} {a : Api} (h0 : 0 ≤ version b a) (h1 : (version b a).toInt ≤ a.protocolMax)
    (ha : hasArray (version b a) (Protocol.response a) = true) :
    ∃ d : Decoder, d.Valid ∧ d.rest.length < 24 ∧ 2 ^ 31 - 1 ≤ asked b a d := by
  have hv : Int16.ofNat (version b a).toInt.toNat = version b a := by
    rw [← Int16.toInt_inj, Int16.toInt_ofNat']
    rw [Int16.le_iff_toInt_le] at h0
    have e0 : (0 : Int16).toInt = 0 := rfl
    have := (version b a).toInt_lt
    have e1 : Int16.size = 65536 := rfl
    rw [Int.toNat_of_nonneg (by omega), Int.bmod_eq_of_le] <;> omega
  obtain ⟨n, hn, h⟩ := bomb_asks a (version b a).toInt.toNat (List.mem_range.2 (by omega)) (by rw [hv]; exact ha)
  rw [hv] at h
  have hn := List.mem_range.1 hn
  exact ⟨bomb n, bomb_valid (by omega), by rw [bomb_rest]; omega, h⟩

theorem leaveGroup_within {v : Int16} (h : ¬ v ≥ 3) : Within (Api.decodeA .LeaveGroup v) 0 0 := by
  show Within (Msg.LeaveGroupResponse.decodeA v {}) 0 0
  unfold Msg.LeaveGroupResponse.decodeA
  have e : ∀ s : Msg.LeaveGroupResponse → ADec Msg.LeaveGroupResponse, ADec.onlyIf (v ≥ 3) s = ADec.nop := fun s => by
    funext t
    simp only [ADec.onlyIf, if_neg h]
    rfl
  simp only [e]
  have h : ∀ (f : Msg.LeaveGroupResponse → Int32 → Msg.LeaveGroupResponse) (g : Msg.LeaveGroupResponse → Int16 → Msg.LeaveGroupResponse),
      WithinStep (ADec.onlyIf (v ≥ 1) (ADec.field ADec.int32 f) ;>> ADec.field ADec.int16 g ;>> ADec.nop) (0 + 2 + 0) (max (max 0 0) 0) :=
    fun f g => ((WithinStep.onlyIf fun _ => WithinStep.field .int32).andThen (WithinStep.field .int16)).andThen .nop
  exact (h _ _ {}).mono (by decide) (by decide)

/-- There is an array at all versions. -/
def alwaysArray : Fields → Bool
  | .done => false
  | .cons _ since upto _ t rest => (since == 0 && upto.isNone && (t matches .array _)) || alwaysArray rest

theorem alwaysArray_has {v : Int16} (h0 : 0 ≤ v) : ∀ fs : Fields, alwaysArray fs = true → hasArray v fs = true
  | .done, h => by cases h
  | .cons _ since upto _ t rest, h => by
    simp only [alwaysArray, Bool.or_eq_true, Bool.and_eq_true, beq_iff_eq, Option.isNone_iff_eq_none] at h
    simp only [hasArray, Bool.or_eq_true, Bool.and_eq_true, decide_eq_true_eq]
    rcases h with ⟨⟨rfl, rfl⟩, h⟩ | h
    · exact .inl ⟨h0, h⟩
    · exact .inr (alwaysArray_has h0 rest h)

theorem array_kinds (a : Api) : a.depth = 0 ∨ a = .LeaveGroup ∨ alwaysArray (Protocol.response a) = true := by
  cases a <;> decide +kernel

/-- Where the protocol has no array in the reply, no bytes make a method ask for more elements than there are bytes. -/
theorem C64_scalars {b : Broker} {a : Api} (h0 : 0 ≤ version b a) (ha : hasArray (version b a) (Protocol.response a) = false)
    (d : Decoder) (hd : d.Valid) : asked b a d ≤ d.rest.length := by
  have hw : Within (a.decodeA (version b a)) 0 0 := by
    rcases array_kinds a with hz | rfl | hz
    · have := a.decodeA_within (version b a)
      rwa [hz] at this
    · refine leaveGroup_within fun h3 => ?_
      have h3' : (3 : Int16) ≤ version b .LeaveGroup := h3
      revert ha
      simp [hasArray, Protocol.response, Protocol.LeaveGroupResponse, Protocol.field, Present, h3']
    · rw [alwaysArray_has h0 _ hz] at ha
      cases ha
  have h := hw d hd
  unfold asked
  rcases e : a.decodeA (version b a) d with ⟨x, n⟩
  rw [e] at h
  cases x with
  | ok r d' => obtain ⟨c, _, h1, h2⟩ := h; dsimp only; omega
  | err e d' => simpa using h
  | panic => simpa using h

/-- Together: at the versions of the protocol, the claim holds of a method exactly if its reply has no array. -/
theorem C64_exact {b : Broker} {a : Api} (h0 : 0 ≤ version b a) (h1 : (version b a).toInt ≤ a.protocolMax) :
    (∀ d : Decoder, d.Valid → asked b a d ≤ d.rest.length) ↔ hasArray (version b a) (Protocol.response a) = false := by
  refine ⟨fun h => ?_, fun h d hd => C64_scalars h0 h d hd⟩
  cases ha : hasArray (version b a) (Protocol.response a) with
  | false => rfl
  | true =>
    obtain ⟨d, hd, hl, hm⟩ := C64_array_fails h0 h1 ha
    have := h d hd
    omega

/-- The claim is false: fewer than 24 bytes in place of the reply to a Metadata request. -/
theorem C64_fails : ¬ C64_statement := fun h => by
  let b : Broker := { config := { clientID := [], dialer := none, tlsConfig := none } }
  obtain ⟨d, hd, hl, hm⟩ := C64_array_fails (b := b) (a := .Metadata) (show (0 : Int16) ≤ 0 by decide)
    (show (0 : Int16).toInt ≤ (Api.protocolMax .Metadata : Int) by decide) (show hasArray 0 (Protocol.response .Metadata) = true by decide +kernel)
  have := h b .Metadata d hd
  omega

theorem arrayless : (Api.all.filter fun a => (List.range (a.protocolMax + 1)).all fun v =>
      !hasArray (Int16.ofNat v) (Protocol.response a)) =
    [.UpdateMetadata, .FindCoordinator, .Heartbeat, .SyncGroup, .InitProducerId, .AddOffsetsToTxn, .EndTxn,
      .SaslAuthenticate, .CreateDelegationToken, .RenewDelegationToken, .ExpireDelegationToken] := by decide +kernel

/-- The methods of which the claim holds at every version of the protocol: 11 of 48 (and LeaveGroup below version 3). -/
theorem C64_methods (a : Api) :
    (∀ b : Broker, 0 ≤ version b a → (version b a).toInt ≤ a.protocolMax → ∀ d : Decoder, d.Valid → asked b a d ≤ d.rest.length) ↔
    a ∈ [.UpdateMetadata, .FindCoordinator, .Heartbeat, .SyncGroup, .InitProducerId, .AddOffsetsToTxn, .EndTxn,
      .SaslAuthenticate, .CreateDelegationToken, .RenewDelegationToken, .ExpireDelegationToken] := by
  have hmax : a.protocolMax < 100 := by cases a <;> decide
  have key : ∀ v : Int16, 0 ≤ v → v.toInt ≤ a.protocolMax → ∃ n ∈ List.range (a.protocolMax + 1), Int16.ofNat n = v := by
    intro v h0 h1
    rw [Int16.le_iff_toInt_le] at h0
    have e0 : (0 : Int16).toInt = 0 := rfl
    refine ⟨v.toInt.toNat, List.mem_range.2 (by omega), ?_⟩
    rw [← Int16.toInt_inj, Int16.toInt_ofNat']
    have e1 : Int16.size = 65536 := rfl
    rw [Int.toNat_of_nonneg (by omega), Int.bmod_eq_of_le] <;> omega
  rw [← arrayless, List.mem_filter, List.all_eq_true]
  constructor
  · intro h
    refine ⟨a.mem_all, fun n hn => ?_⟩
    have hn := List.mem_range.1 hn
    have ht : (Int16.ofNat n).toInt = n := by
      have e1 : Int16.size = 65536 := rfl
      rw [Int16.toInt_ofNat', Int.bmod_eq_of_le] <;> omega
    let b : Broker := { apiVersion := ({} : ApiVersion).put (Int16.ofNat n) a, config := { clientID := [], dialer := none, tlsConfig := none } }
    have hb : version b a = Int16.ofNat n := by
      show (({} : ApiVersion).put (Int16.ofNat n) a).get a = _
      rw [ApiVersion.get_put, if_pos rfl]
    have h0 : 0 ≤ version b a := by
      rw [hb, Int16.le_iff_toInt_le, ht]
      show (0 : Int) ≤ n
      omega
    have h1 : (version b a).toInt ≤ a.protocolMax := by rw [hb, ht]; omega
    have := (C64_exact h0 h1).1 (h b h0 h1)
    rw [hb] at this
    rw [this]
    rfl
  · intro h b h0 h1
    obtain ⟨n, hn, hv⟩ := key _ h0 h1
    have := h.2 n hn
    rw [hv] at this
    exact (C64_exact h0 h1).2 (by simpa using this)

/-- Non-trivial instance of `C64_partial`: a ListGroups reply with two groups is decoded, with two elements and the
eight bytes of their strings asked for, of 22 bytes. -/
example : ∃ (r : Msg.ListGroupsResponse) (d' : Decoder),
    Api.decodeA .ListGroups 0 (newDecoder [0, 0, 0, 0, 0, 2, 0, 1, 65, 0, 3, 66, 67, 68, 0, 2, 69, 70, 0, 2, 71, 72] 22) = (.ok r d', 10) :=
  ⟨_, _, rfl⟩

end Kafka.Props
