import Verif.Gen.Rewrites
import Verif.Props.Messages
/-!
Property C93: what was decoded is encoded again.

C14 is about values that are encoded and decoded; here it is the other way round, for whatever bytes `Decode` accepts.
-/
namespace Kafka.Props

open Kafka

/-- The full claim: `Encode` writes what `Decode` has read. -/
def C93_statement (p : Entry) (v : Int16) : Prop :=
  ∀ (d : Decoder) (t : p.1.T) (d' : Decoder), d.Valid → p.1.decode v p.1.zero d = .ok t d' →
    d.rest = bytesOf (p.1.encode v t) ++ d'.rest

/-- `Decode`, having succeeded, has taken as many bytes as `Encode` then writes, the message is one whose lengths can be
written, and what is written differs from what was read only in bytes that are now zero. -/
theorem C93_partial (p : Entry) (hp : p ∈ Msg.all) (v : Int16) (d : Decoder) (hd : d.Valid) (t : p.1.T) (d' : Decoder)
    (h : p.1.decode v p.1.zero d = .ok t d') :
    p.2.Fits v t ∧ (bytesOf (p.1.encode v t)).length ≤ d.rest.length ∧ d' = d.skip (bytesOf (p.1.encode v t)).length ∧
      ∀ i, i < (bytesOf (p.1.encode v t)).length →
        (bytesOf (p.1.encode v t))[i]? = d.rest[i]? ∨ (bytesOf (p.1.encode v t))[i]? = some 0 := by
  obtain ⟨hF, n, hn, rfl, hz⟩ := Msg.all_rewrites p hp v d t d' hd h
  rw [((Msg.all_lawful p hp).emits v t).bytesOf]
  have hl : (p.2.wire v t).length = n := by rw [hz.1, List.length_take]; omega
  refine ⟨hF, by omega, by rw [hl], fun i hi => ?_⟩
  rcases hz.2 i (by rw [List.length_take]; omega) with h1 | h1
  · exact .inl (by rw [h1, List.getElem?_take_of_lt (by omega)])
  · exact .inr h1

/-- `Size` of what was decoded is the number of bytes read. -/
theorem C93_size (p : Entry) (hp : p ∈ Msg.all) (v : Int16) (d : Decoder) (hd : d.Valid) (t : p.1.T) (n : Nat)
    (h : p.1.decode v p.1.zero d = .ok t (d.skip n)) : p.1.size v t = Int32.ofNat n := by
  obtain ⟨_, _, h1, _⟩ := C93_partial p hp v d hd t _ h
  rw [C13_size p hp, Decoder.skip_inj h1]

/-- The bytes are the same exactly if they are what `Encode` writes of any message whose lengths can be written. -/
theorem C93_exact (p : Entry) (hp : p ∈ Msg.all) (v : Int16) (d : Decoder) (hd : d.Valid) (t : p.1.T) (d' : Decoder)
    (h : p.1.decode v p.1.zero d = .ok t d') :
    d.rest = bytesOf (p.1.encode v t) ++ d'.rest ↔
      ∃ s tail, p.2.Fits v s ∧ d.rest = bytesOf (p.1.encode v s) ++ tail := by
  constructor
  · intro h1
    exact ⟨t, _, (C93_partial p hp v d hd t d' h).1, h1⟩
  · rintro ⟨s, tail, hs, h1⟩
    have h2 := C14_roundtrip p hp v s p.1.zero hs d hd tail h1
    rw [h] at h2
    obtain ⟨rfl, rfl⟩ := Res.ok.inj h2
    rw [C14_stable p hp, Decoder.skip_rest hd, h1, List.drop_left]

/-- What is written is read again, whatever is behind: with as many bytes, as a message that is written in the same way. -/
theorem C93_again (p : Entry) (hp : p ∈ Msg.all) (v : Int16) (d : Decoder) (hd : d.Valid) (t : p.1.T) (d' : Decoder)
    (h : p.1.decode v p.1.zero d = .ok t d') (d2 : Decoder) (hd2 : d2.Valid) (tail : List Byte)
    (hr : d2.rest = bytesOf (p.1.encode v t) ++ tail) :
    ∃ t2, p.1.decode v p.1.zero d2 = .ok t2 (d2.skip (bytesOf (p.1.encode v t)).length) ∧
      bytesOf (p.1.encode v t2) = bytesOf (p.1.encode v t) :=
  ⟨_, C14_roundtrip p hp v t p.1.zero (C93_partial p hp v d hd t d' h).1 d2 hd2 tail hr, C14_stable p hp v t p.1.zero⟩

/-- So the first `Encode` may change the bytes, and none after it does: of what it writes the full claim holds. -/
theorem C93_settled (p : Entry) (hp : p ∈ Msg.all) (v : Int16) (d : Decoder) (hd : d.Valid) (t : p.1.T) (d' : Decoder)
    (h : p.1.decode v p.1.zero d = .ok t d') (d2 : Decoder) (hd2 : d2.Valid) (tail : List Byte)
    (hr : d2.rest = bytesOf (p.1.encode v t) ++ tail) (t2 : p.1.T) (d2' : Decoder)
    (h2 : p.1.decode v p.1.zero d2 = .ok t2 d2') : d2.rest = bytesOf (p.1.encode v t2) ++ d2'.rest :=
  (C93_exact p hp v d2 hd2 t2 d2' h2).2 ⟨t, tail, (C93_partial p hp v d hd t d' h).1, hr⟩

/-- And if the bytes were the same, so is the message read from them. -/
theorem C93_same (p : Entry) (hp : p ∈ Msg.all) (v : Int16) (d : Decoder) (hd : d.Valid) (t : p.1.T) (d' : Decoder)
    (h : p.1.decode v p.1.zero d = .ok t d') (h1 : d.rest = bytesOf (p.1.encode v t) ++ d'.rest)
    (d2 : Decoder) (hd2 : d2.Valid) (tail : List Byte) (hr : d2.rest = bytesOf (p.1.encode v t) ++ tail) :
    p.1.decode v p.1.zero d2 = .ok t (d2.skip (bytesOf (p.1.encode v t)).length) := by
  have hf := (C93_partial p hp v d hd t d' h).1
  rw [C14_roundtrip p hp v t p.1.zero hf d2 hd2 tail hr]
  have h2 := C14_roundtrip p hp v t p.1.zero hf d hd _ h1
  rw [h] at h2
  rw [← (Res.ok.inj h2).1]

/-- A reply to CreateTopics with one topic, read from bytes followed by others and written as it was. -/
example : ∃ t, Msg.CreateTopicsResponse.decode 0 {} (newDecoder [0, 0, 0, 1, 0, 1, 97, 0, 36, 7] 10) =
      .ok t ((newDecoder [0, 0, 0, 1, 0, 1, 97, 0, 36, 7] 10).skip 9) ∧
    bytesOf (Msg.CreateTopicsResponse.encode 0 t) = [0, 0, 0, 1, 0, 1, 97, 0, 36] := ⟨_, rfl, by decide +kernel⟩

theorem alter_mem : (⟨Msg.AlterConfigsRequest.type, Msg.AlterConfigsRequest.layout⟩ : Entry) ∈ Msg.all :=
  List.mem_flatten.2 ⟨Msg.typesAlterConfigs, by simp [Msg.byApi], by simp [Msg.typesAlterConfigs]⟩

theorem find_mem : (⟨Msg.FindCoordinatorRequest.type, Msg.FindCoordinatorRequest.layout⟩ : Entry) ∈ Msg.all :=
  List.mem_flatten.2 ⟨Msg.typesFindCoordinator, by simp [Msg.byApi], by simp [Msg.typesFindCoordinator]⟩

/-- The full claim is false: a number of structures that is negative is written as 0, and a bool that is neither 0 nor 1 as
false (message/messages.gen.go:8838-8858, message/decoder.go:77-84); ... -/
theorem C93_fails : ∃ p ∈ Msg.all, ¬C93_statement p 0 := by
  refine ⟨_, alter_mem, fun h => ?_⟩
  have h1 := h (newDecoder [0x80, 0, 0, 1, 2] 5) {} ((newDecoder [0x80, 0, 0, 1, 2] 5).skip 5)
    (newDecoder_valid (bs := [0x80, 0, 0, 1, 2]) (by simp)) rfl
  exact absurd h1 (by
    show ¬(newDecoder [0x80, 0, 0, 1, 2] 5).rest = bytesOf (Msg.AlterConfigsRequest.encode 0 {}) ++ _
    decide +kernel)

/-- ... so are a string that is null, which is written as an empty one (message/decoder.go:212-230), ... -/
theorem C93_fails_null : ¬C93_statement ⟨Msg.FindCoordinatorRequest.type, Msg.FindCoordinatorRequest.layout⟩ 0 := by
  intro h
  have h1 := h (newDecoder [0xff, 0xff] 2) {} ((newDecoder [0xff, 0xff] 2).skip 2)
    (newDecoder_valid (bs := [0xff, 0xff]) (by simp)) rfl
  exact absurd h1 (by
    show ¬(newDecoder [0xff, 0xff] 2).rest = bytesOf (Msg.FindCoordinatorRequest.encode 0 {}) ++ _
    decide +kernel)

/-- ... and then the message need not be the same when it is read once more: the nil array has become an empty one. -/
theorem C93_same_fails : ∃ t t2,
    Msg.AlterConfigsRequest.decode 0 {} (newDecoder [0xff, 0xff, 0xff, 0xff, 1] 5) =
      .ok t ((newDecoder [0xff, 0xff, 0xff, 0xff, 1] 5).skip 5) ∧
    bytesOf (Msg.AlterConfigsRequest.encode 0 t) = [0, 0, 0, 0, 1] ∧
    Msg.AlterConfigsRequest.decode 0 {} (newDecoder [0, 0, 0, 0, 1] 5) = .ok t2 ((newDecoder [0, 0, 0, 0, 1] 5).skip 5) ∧
    t.Resources = none ∧ t2.Resources = some [] := ⟨_, _, rfl, by decide +kernel, rfl, rfl, rfl⟩

end Kafka.Props
