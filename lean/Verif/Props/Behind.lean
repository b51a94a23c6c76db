import Verif.Props.Receiver
import Verif.Props.Decode
/-!
C90: bytes behind a message.  C91: whether the bytes that are missing can come; and, for C89, replies of any bytes.
-/
namespace Kafka.Props

open Kafka

/-! ### C90 -/

theorem all_holds (p : Entry) (hp : p ∈ Msg.all) : ∃ K : KeptMsg p.1, K.Holds p.2 := by
  rw [← Msg.kepts_all] at hp
  obtain ⟨q, hq, rfl⟩ := List.mem_map.1 hp
  exact ⟨q.2.2, Msg.kepts_hold q hq⟩

/-- What `Decode` makes of some bytes, it makes of them with any others behind, and reads as many. -/
theorem C90_more (p : Entry) (hp : p ∈ Msg.all) (v : Int16) (t0 : p.1.T) (d d2 : Decoder) (tail : List Byte) (hd : d.Valid)
    (hd2 : d2.Valid) (hr : d2.rest = d.rest ++ tail) (t : p.1.T) (d' : Decoder) (h : p.1.decode v t0 d = .ok t d') :
    ∃ n, n ≤ d.rest.length ∧ d' = d.skip n ∧ p.1.decode v t0 d2 = .ok t (d2.skip n) := by
  obtain ⟨K, hK⟩ := all_holds p hp
  exact (hK.longer v t0).ok d d2 tail hd hd2 hr t d' h

/-- Bytes that make `Decode` panic do so with any others behind. -/
theorem C90_panic (p : Entry) (hp : p ∈ Msg.all) (v : Int16) (t0 : p.1.T) (d d2 : Decoder) (tail : List Byte) (hd : d.Valid)
    (hd2 : d2.Valid) (hr : d2.rest = d.rest ++ tail) (h : p.1.decode v t0 d = .panic) : p.1.decode v t0 d2 = .panic := by
  obtain ⟨K, hK⟩ := all_holds p hp
  exact (hK.longer v t0).panic d d2 tail hd hd2 hr h

/-- Bytes that have not been read may as well not be there. -/
theorem C90_fewer (p : Entry) (hp : p ∈ Msg.all) (v : Int16) (t0 : p.1.T) (d d2 : Decoder) (tail : List Byte) (hd : d.Valid)
    (hd2 : d2.Valid) (hr : d2.rest = d.rest ++ tail) (t : p.1.T) (n : Nat) (hn : n ≤ d.rest.length)
    (h : p.1.decode v t0 d2 = .ok t (d2.skip n)) : p.1.decode v t0 d = .ok t (d.skip n) := by
  obtain ⟨K, hK⟩ := all_holds p hp
  have hl := hK.longer v t0
  cases hx : p.1.decode v t0 d with
  | panic => rw [hl.panic d d2 tail hd hd2 hr hx] at h; cases h
  | err e d' => have := hl.err d d2 tail hd hd2 hr e d' hx t n h; omega
  | ok t' d' =>
    obtain ⟨n', _, rfl, h'⟩ := hl.ok d d2 tail hd hd2 hr t' d' hx
    rw [h] at h'
    obtain ⟨rfl, h3⟩ := Res.ok.inj h'
    rw [Decoder.skip_inj h3]

/-- Where there are too few bytes, fewer are too few. -/
theorem C90_error (p : Entry) (hp : p ∈ Msg.all) (v : Int16) (t0 : p.1.T) (d d2 : Decoder) (tail : List Byte) (hd : d.Valid)
    (hd2 : d2.Valid) (hr : d2.rest = d.rest ++ tail) (e : DErr) (d' : Decoder) (h : p.1.decode v t0 d2 = .err e d') :
    ∃ d'', p.1.decode v t0 d = .err e d'' := by
  obtain ⟨K, hK⟩ := all_holds p hp
  have hl := hK.longer v t0
  cases hx : p.1.decode v t0 d with
  | panic => rw [hl.panic d d2 tail hd hd2 hr hx] at h; cases h
  | err e' d'' => rw [hl.short d hd e' d'' hx, hl.short d2 hd2 e d' h]; exact ⟨_, rfl⟩
  | ok t' d'' =>
    obtain ⟨n', _, _, h'⟩ := hl.ok d d2 tail hd hd2 hr t' d'' hx
    rw [h] at h'; cases h'

/-- The methods of `Broker`: a response does not depend on what is behind it in the reply. -/
theorem C90_method (b : Broker) (a : Api) (d d2 : Decoder) (tail : List Byte) (hd : d.Valid) (hd2 : d2.Valid)
    (hr : d2.rest = d.rest ++ tail) :
    (∀ r, b.returned a (some d) = some (r, none) → b.returned a (some d2) = some (r, none)) ∧
    (b.returned a (some d) = none → b.returned a (some d2) = none) ∧
    (∀ r, b.returned a (some d2) = some (r, none) →
      b.returned a (some d) = some (r, none) ∨
      ∃ r', b.returned a (some d) = some (r', some (.decode .shortBuffer))) := by
  obtain ⟨req⟩ : Nonempty a.req.T := ⟨a.req.zero⟩
  have hl := a.keeps_holds.longer (version b a) a.resp.zero
  obtain ⟨s1, s2, s3⟩ := C89_same b a req d
  obtain ⟨u1, u2, u3⟩ := C89_same b a req d2
  rw [C19_response] at s1 s2 s3 u1 u2 u3
  refine ⟨fun r h => ?_, fun h => ?_, fun r h => ?_⟩
  · obtain ⟨d', h'⟩ := (s1 r).2 h
    obtain ⟨n, _, _, h2⟩ := hl.ok d d2 tail hd hd2 hr r d' h'
    exact (u1 r).1 ⟨_, h2⟩
  · exact u3.1 (hl.panic d d2 tail hd hd2 hr (s3.2 h))
  · obtain ⟨d', h'⟩ := (u1 r).2 h
    cases hx : a.resp.decode (version b a) a.resp.zero d with
    | panic => rw [hl.panic d d2 tail hd hd2 hr hx] at h'; cases h'
    | err e d'' =>
      obtain rfl := hl.short d hd e d'' hx
      exact .inr ((s2 _).1 ⟨d'', hx⟩)
    | ok t d'' =>
      obtain ⟨n, _, _, h2⟩ := hl.ok d d2 tail hd hd2 hr t d'' hx
      rw [h2] at h'
      obtain ⟨rfl, _⟩ := Res.ok.inj h'
      exact .inl ((s1 t).1 ⟨_, hx⟩)

/-- A reply to `DeleteTopics` with bytes of something else behind. -/
example : olderBroker.returned .DeleteTopics (some (newDecoder [0, 0, 0, 1, 0, 1, 0x61, 0, 29] 9)) =
      some (({ Responses := some [{ Name := [0x61], ErrorCode := 29 }] } : Msg.DeleteTopicsResponse), none) ∧
    olderBroker.returned .DeleteTopics (some (newDecoder [0, 0, 0, 1, 0, 1, 0x61, 0, 29, 0x80, 7, 255] 12)) =
      some (({ Responses := some [{ Name := [0x61], ErrorCode := 29 }] } : Msg.DeleteTopicsResponse), none) :=
  ⟨rfl, rfl⟩

/-! ### C91 -/

/-- The full claim, of one method: where it says that bytes are missing, there are bytes with which it returns a response. -/
def C91_statement (b : Broker) (a : Api) : Prop :=
  ∀ bs : List Byte, bs.length < 2 ^ 61 → ∀ r e, b.returned a (some (newDecoder bs bs.length)) = some (r, some e) →
    ∃ tail y, (bs ++ tail).length < 2 ^ 62 ∧
      b.returned a (some (newDecoder (bs ++ tail) (bs ++ tail).length)) = some (y, none)

/-- The error says that bytes are missing, and they are: whatever comes behind, a response takes more bytes than there were. -/
theorem C91_missing (p : Entry) (hp : p ∈ Msg.all) (v : Int16) (t0 : p.1.T) (d : Decoder) (hd : d.Valid) (e : DErr)
    (d' : Decoder) (h : p.1.decode v t0 d = .err e d') : isInsufficientDataError e = true ∧
    ∀ (d2 : Decoder) tail, d2.Valid → d2.rest = d.rest ++ tail → ∀ t n, p.1.decode v t0 d2 = .ok t (d2.skip n) →
      d.rest.length < n := by
  obtain ⟨K, hK⟩ := all_holds p hp
  obtain rfl := (hK.longer v t0).short d hd e d' h
  exact ⟨rfl, fun d2 tail hd2 hr t n h2 => (hK.longer v t0).err d d2 tail hd hd2 hr _ d' h t n h2⟩

/-- With zeros behind, enough of them, `Decode` does not fail, though it may panic. -/
theorem C91_zeros (p : Entry) (hp : p ∈ Msg.all) (v : Int16) (t0 : p.1.T) (bs : List Byte) (k : Nat) (hk : 2 ^ 38 ≤ k)
    (d : Decoder) (hd : d.Valid) (hr : d.rest = bs ++ List.replicate k 0) :
    p.1.decode v t0 d = .panic ∨ ∃ t n, p.1.decode v t0 d = .ok t (d.skip n) ∧ n ≤ bs.length + 2 ^ 38 := by
  obtain ⟨K, hK⟩ := all_holds p hp
  exact (hK.filled v t0).run d bs k hd hk hr

/-- The methods: with enough zeros behind, any reply gives a response or makes `Decode` panic. -/
theorem C91_response_partial (b : Broker) (a : Api) (bs : List Byte) (hl : bs.length < 2 ^ 61) :
    ∃ tail, (bs ++ tail).length < 2 ^ 62 ∧
      (b.returned a (some (newDecoder (bs ++ tail) (bs ++ tail).length)) = none ∨
      ∃ y, b.returned a (some (newDecoder (bs ++ tail) (bs ++ tail).length)) = some (y, none)) := by
  have hlen : (bs ++ List.replicate (2 ^ 38) (0 : Byte)).length < 2 ^ 62 := by
    rw [List.length_append, List.length_replicate]; omega
  refine ⟨List.replicate (2 ^ 38) 0, hlen, ?_⟩
  obtain ⟨s1, s2, s3⟩ := C89_same b a a.req.zero (newDecoder (bs ++ List.replicate (2 ^ 38) (0 : Byte)) _)
  rw [C19_response] at s1 s2 s3
  rcases (a.keeps_holds.filled (version b a) a.resp.zero).run _ bs (2 ^ 38) (newDecoder_valid hlen) (Nat.le_refl _)
      (newDecoder_rest _) with h | ⟨y, n, h, _⟩
  · exact .inl (s3.1 h)
  · exact .inr ⟨y, (s1 y).1 ⟨_, h⟩⟩

/-- So the full claim holds of the methods that do not panic (`C60_immune_list`). -/
theorem C91_immune (b : Broker) (a : Api) (hi : ∀ req d, d.Valid → (b.call a req).decode d ≠ .panic) :
    C91_statement b a := by
  intro bs hl r e _
  obtain ⟨tail, h1, h2 | ⟨y, h2⟩⟩ := C91_response_partial b a bs hl
  · exact absurd ((C89_same b a a.req.zero _).2.2.2 h2) (hi _ _ (newDecoder_valid h1))
  · exact ⟨tail, y, h1, h2⟩

/-- It is false: a reply to `SaslAuthenticate` of which the first byte of a length is there, and makes it negative. -/
theorem C91_fails : ∃ b a, ¬C91_statement b a := by
  refine ⟨olderBroker, .SaslAuthenticate, fun h => ?_⟩
  have h0 : olderBroker.returned .SaslAuthenticate (some (newDecoder [0, 0, 0x80] 3)) =
      some (({} : Msg.SaslAuthenticateResponse), some (.decode .shortBuffer)) := by rfl
  obtain ⟨tail, y, hl, hy⟩ := h [0, 0, 0x80] (by decide) _ _ h0
  have key : ∀ x : Byte, (olderBroker.returned .SaslAuthenticate (some (newDecoder [0, 0, 0x80, x] 4))).isNone = true := by
    decide +kernel
  cases tail with
  | nil => cases h0.symm.trans hy
  | cons x tail =>
    have h2 := (C90_method olderBroker .SaslAuthenticate (newDecoder [0, 0, 0x80, x] 4)
      (newDecoder ([0, 0, 0x80] ++ x :: tail) ([0, 0, 0x80] ++ x :: tail : List Byte).length) tail
      (newDecoder_valid (bs := [0, 0, 0x80, x]) (by simp)) (newDecoder_valid hl) (by
        rw [newDecoder_rest]; exact congrArg (· ++ tail) (newDecoder_rest [0, 0, 0x80, x]).symm)).2.1
      (Option.isNone_iff_eq_none.1 (key x))
    rw [h2] at hy
    cases hy

/-- What the hypotheses ask for: an error where bytes are missing, and a method that does not panic. -/
example : olderBroker.returned .Heartbeat (some (newDecoder [27] 1)) =
      some (({} : Msg.HeartbeatResponse), some (.decode .shortBuffer)) ∧
    olderBroker.returned .Heartbeat (some (newDecoder [27, 0, 0] 3)) =
      some (({ ErrorCode := 27 * 256 } : Msg.HeartbeatResponse), none) ∧ 0 ≤ version olderBroker .Heartbeat :=
  ⟨rfl, rfl, by decide⟩

/-! ### C89, replies of any bytes -/

/-- Whatever the bytes of the reply: what a method returns with an error is a beginning of each response that the reply can be
the beginning of, and zeros. -/
theorem C89_part_partial (b : Broker) (a : Api) (d d2 : Decoder) (tail : List Byte) (hd : d.Valid) (hd2 : d2.Valid)
    (hr : d2.rest = d.rest ++ tail) (r y : a.resp.T) (e : DoErr) (h : b.returned a (some d) = some (r, some e))
    (h2 : b.returned a (some d2) = some (y, none)) : a.keeps.Part r y := by
  obtain ⟨d2', h2⟩ := ((C89_same b a a.req.zero d2).1 y).2 h2
  rw [C19_response] at h2
  simp only [Broker.returned] at h
  cases hx : a.keeps.decode (b.apiVersion.get a) a.resp.zero d with
  | ok t d' => rw [hx] at h; cases h
  | panic => rw [hx] at h; cases h
  | err e' t d' =>
    rw [hx] at h
    cases h
    exact a.keeps_holds.part _ d d2 tail hd hd2 hr e' r d' y d2' hx h2

/-- The same of all message types. -/
theorem C89_part_messages (q : Σ (M : MsgType) (_ : Layout M), KeptMsg M) (hq : q ∈ Msg.kepts) (v : Int16) (d d2 : Decoder)
    (tail : List Byte) (hd : d.Valid) (hd2 : d2.Valid) (hr : d2.rest = d.rest ++ tail) (r y : q.1.T) (e : DErr)
    (d' d2' : Decoder) (h : q.2.2.decode v q.1.zero d = .err e r d') (h2 : q.1.decode v q.1.zero d2 = .ok y d2') :
    q.2.2.Part r y :=
  (Msg.kepts_hold q hq).part v d d2 tail hd hd2 hr e r d' y d2' h h2

/-- What this says of `DeleteTopics`: there are no results, or the first of those that come with the rest of the reply, and
zeros for the others. -/
theorem C89_part_deleted (b : Broker) (d d2 : Decoder) (tail : List Byte) (hd : d.Valid) (hd2 : d2.Valid)
    (hr : d2.rest = d.rest ++ tail) (r y : Msg.DeleteTopicsResponse) (e : DoErr)
    (h : b.returned .DeleteTopics (some d) = some (r, some e)) (h2 : b.returned .DeleteTopics (some d2) = some (y, none)) :
    r.Responses = none ∨ ∃ l j, y.Responses = some l ∧ j < l.length ∧
      r.Responses = some (l.take j ++ List.replicate (l.length - j) ({} : Msg.DeletableTopicResult20)) := by
  rcases C89_part_partial b .DeleteTopics d d2 tail hd hd2 hr r y e h h2 with ⟨k, hk, rfl⟩ | ⟨l, j, h3, h4, rfl⟩
  · refine .inl ?_
    rcases (show k = 0 ∨ k = 1 by omega) with rfl | rfl <;> rfl
  · exact .inr ⟨l, j, h3, h4, rfl⟩

/-- The hypotheses are met by a reply that is cut off. -/
example : undeletedCut.rest ++ [0x62, 0, 3] = (newDecoder (undeleted.wire 0) 14).rest ∧
    olderBroker.returned .DeleteTopics (some (newDecoder (undeleted.wire 0) 14)) = some (undeleted, none) :=
  ⟨by decide +kernel, rfl⟩

end Kafka.Props
