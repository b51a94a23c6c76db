import Verif.Props.Broker
import Verif.Props.Messages
import Verif.Broker.Returned
import Verif.Gen.Kepts
/-!
C89: what the methods of `Broker` return along with an error.

`Cut` (Verif/Message/Kept.lean) and, for each message type, `cut` (Verif/Gen/Kept) say what is left of a message of which only
the first bytes are there: each field that is there whole, of arrays of structures the items that are there whole.
-/
namespace Kafka.Props

open Kafka

/-- The full claim, of one method: along with an error it returns nothing, that is the zero value. -/
def C89_statement (b : Broker) (a : Api) : Prop :=
  ∀ reply r e, b.returned a reply = some (r, some e) → r = a.resp.zero

/-- A method returns an error exactly if `Decode` does, and otherwise what it decoded. -/
theorem C89_same (b : Broker) (a : Api) (req : a.req.T) (d : Decoder) :
    (∀ r, (∃ d', (b.call a req).decode d = .ok r d') ↔ b.returned a (some d) = some (r, none)) ∧
    (∀ e, (∃ d', (b.call a req).decode d = .err e d') ↔ ∃ r, b.returned a (some d) = some (r, some (.decode e))) ∧
    ((b.call a req).decode d = .panic ↔ b.returned a (some d) = none) := by
  rw [C19_response, ← a.keeps_holds.same]
  simp only [Broker.returned, version]
  cases a.keeps.decode (b.apiVersion.get a) a.resp.zero d <;> simp [Kept.forget]

/-- What comes without an error is what the broker sent. -/
theorem C89_whole (b : Broker) (a : Api) (t : a.resp.T) (hf : a.respLayout.Fits (version b a) t) (d : Decoder) (hd : d.Valid)
    (tail : List Byte) (hr : d.rest = a.respLayout.wire (version b a) t ++ tail) :
    b.returned a (some d) = some (a.respLayout.seen (version b a) t a.resp.zero, none) := by
  have h := a.keeps_holds.same (version b a) a.resp.zero d
  rw [(a.resp_lawful.reads _ t hf _).1 d hd tail hr] at h
  simp only [Broker.returned]
  revert h
  cases a.keeps.decode (b.apiVersion.get a) a.resp.zero d with
  | ok t' d' => intro h; rw [(Res.ok.inj h).1]
  | err e t' d' => intro h; cases h
  | panic => intro h; cases h

/-- With an error of the connection nothing comes. -/
theorem C89_unanswered (b : Broker) (a : Api) : b.returned a none = some (a.resp.zero, some .conn) := rfl

/-- With a reply that is cut off, what is there whole of the reply comes with the error, and nothing else but zeros. -/
theorem C89_cut_partial (b : Broker) (a : Api) (t : a.resp.T) (hf : a.respLayout.Fits (version b a) t) (n : Nat)
    (hn : n < (a.respLayout.wire (version b a) t).length) (d : Decoder) (hd : d.Valid)
    (hr : d.rest = (a.respLayout.wire (version b a) t).take n) :
    b.returned a (some d) = some (a.keeps.cut (version b a) n t, some (.decode .shortBuffer)) := by
  obtain ⟨d', h⟩ := a.keeps_holds.cut (version b a) t hf n hn d hd hr
  simp only [Broker.returned]
  rw [h]

/-- The same of all message types. -/
theorem C89_messages (q : Σ (M : MsgType) (_ : Layout M), KeptMsg M) (hq : q ∈ Msg.kepts) (v : Int16) (t : q.1.T)
    (hf : q.2.1.Fits v t) (n : Nat) (hn : n < (q.2.1.wire v t).length) (d : Decoder) (hd : d.Valid)
    (hr : d.rest = (q.2.1.wire v t).take n) :
    ∃ d', q.2.2.decode v q.1.zero d = .err .shortBuffer (q.2.2.cut v n t) d' :=
  (Msg.kepts_hold q hq).cut v t hf n hn d hd hr

/-- These are the 218 message types, with their `Decode`. -/
theorem C89_all : Msg.kepts.map (fun q => (⟨q.1, q.2.1⟩ : Entry)) = Msg.all ∧
    ∀ q ∈ Msg.kepts, ∀ v t0 d, (q.2.2.decode v t0 d).forget = q.1.decode v t0 d :=
  ⟨Msg.kepts_all, fun q hq => (Msg.kepts_hold q hq).same⟩

/-- Of a message that is there whole, all is left. -/
theorem C89_cut_whole (q : Σ (M : MsgType) (_ : Layout M), KeptMsg M) (hq : q ∈ Msg.kepts) (v : Int16) (t : q.1.T)
    (hf : q.2.1.Fits v t) (hl : (q.2.1.wire v t).length < 2 ^ 62) :
    q.2.2.cut v (q.2.1.wire v t).length t = q.2.1.seen v t q.1.zero :=
  (Msg.kepts_hold q hq).whole v t hf hl

/-- Of an array, the first items are left, as many as there are bytes for, and all others are zero. -/
theorem C89_items {α : Type} (w : α → List Byte) (seen : α → α) (zero : α) (l : List α) : ∀ n, ∃ k, k ≤ l.length ∧
    Cut.items w seen zero n l = (l.take k).map seen ++ List.replicate (l.length - k) zero ∧
    ((l.take k).flatMap w).length ≤ n ∧ (k < l.length → n < ((l.take (k + 1)).flatMap w).length) := by
  induction l with
  | nil => intro n; exact ⟨0, by simp, by simp [Cut.items], by simp, by simp⟩
  | cons x l ih =>
    intro n
    by_cases h : (w x).length ≤ n
    · obtain ⟨k, h1, h2, h3, h4⟩ := ih (n - (w x).length)
      refine ⟨k + 1, by simp; omega, ?_, ?_, fun hk => ?_⟩
      · rw [Cut.items, if_pos h, h2]
        simp
      · simp only [List.take_succ_cons, List.flatMap_cons, List.length_append]; omega
      · have := h4 (by simpa using hk)
        simp only [List.take_succ_cons, List.flatMap_cons, List.length_append]; omega
    · refine ⟨0, by simp, ?_, by simp, fun _ => ?_⟩
      · rw [Cut.items, if_neg h]
        simp [List.map_const', List.replicate_succ]
      · simp; omega

/-- The result of deleting two topics: neither could be. -/
def undeleted : Msg.DeleteTopicsResponse :=
  { Responses := some [{ Name := goString "a", ErrorCode := 29 }, { Name := goString "b", ErrorCode := 3 }] }

/-- A broker at version 0. -/
def olderBroker : Broker := { apiVersion := {}, config := { clientID := [] } }

/-- Its first eleven bytes: the number of topics, and the first topic but for one of its bytes less the second. -/
def undeletedCut : Decoder := newDecoder [0, 0, 0, 2, 0, 1, 0x61, 0, 29, 0, 1] 11

/-- It is false: the caller is given a response in which the second topic has no error and no name. -/
theorem C89_fails : ∃ b a, ¬C89_statement b a := by
  refine ⟨olderBroker, .DeleteTopics, fun h => ?_⟩
  have h1 : olderBroker.returned .DeleteTopics (some undeletedCut) =
      some (({ Responses := some [{ Name := [0x61], ErrorCode := 29 }, {}] } : Msg.DeleteTopicsResponse),
        some (.decode .shortBuffer)) := by rfl
  have h2 := h _ _ _ h1
  cases h2

/-- Any reply to `DeleteTopics` that is cut off behind the number of topics has that many topics, and those of which the
broker's result has not come have no error. -/
theorem C89_deleted (b : Broker) (t : Msg.DeleteTopicsResponse) (hf : t.Fits (version b .DeleteTopics)) (n : Nat)
    (h0 : 8 ≤ n) (hn : n < (t.wire (version b .DeleteTopics)).length) (d : Decoder) (hd : d.Valid)
    (hr : d.rest = (t.wire (version b .DeleteTopics)).take n) :
    ∃ (r : Msg.DeleteTopicsResponse) (l : List Msg.DeletableTopicResult20) (k : Nat),
      b.returned .DeleteTopics (some d) = some (r, some (.decode .shortBuffer)) ∧
      r.Responses = some l ∧ l.length = t.Responses.elems.length ∧ k < l.length ∧
      l.take k = t.Responses.elems.take k ∧ ∀ x ∈ l.drop k, x.ErrorCode = 0 ∧ x.Name = [] := by
  have h := C89_cut_partial b .DeleteTopics t hf n hn d hd hr
  have hs : t.ends (version b .DeleteTopics) 0 ≤ 4 := by
    simp only [Msg.DeleteTopicsResponse.ends, Cut.ends, Wire.when]
    split <;> simp [Wire.int32, Wire.bigEndian]
  obtain ⟨k, h1, h2, h3, h4⟩ := C89_items (Msg.DeletableTopicResult20.wire (version b .DeleteTopics))
    (fun x => x.seen (version b .DeleteTopics) {}) {} t.Responses.elems (n - t.ends (version b .DeleteTopics) 0 - 4)
  have hid : ∀ l : List Msg.DeletableTopicResult20,
      l.map (fun x => x.seen (version b .DeleteTopics) {}) = l := by
    intro l
    rw [show (fun x : Msg.DeletableTopicResult20 => x.seen (version b .DeleteTopics) {}) = id from rfl, List.map_id]
  rw [hid] at h2
  have hk : k < t.Responses.elems.length := by
    apply Classical.byContradiction
    intro hc
    have : k = t.Responses.elems.length := by omega
    subst this
    rw [List.take_length] at h3
    have hl : (t.wire (version b .DeleteTopics)).length = t.ends (version b .DeleteTopics) 0 + 4 +
        (t.Responses.elems.flatMap (Msg.DeletableTopicResult20.wire (version b .DeleteTopics))).length := by
      simp only [Msg.DeleteTopicsResponse.ends, Cut.ends, Msg.DeleteTopicsResponse.wire, List.length_append, Wire.array]
      simp [Wire.int32, Wire.bigEndian]
      omega
    omega
  refine ⟨_, t.Responses.elems.take k ++ List.replicate (t.Responses.elems.length - k) ({} : Msg.DeletableTopicResult20), k, h, ?_, ?_, ?_, ?_, ?_⟩
  · show Cut.array n (t.ends (version b .DeleteTopics) 0) _ _ _ _ = _
    rw [Cut.array, if_pos (by omega), h2]
  · simp; omega
  · simp; omega
  · rw [List.take_append_of_le_length (by simp; omega), List.take_take, Nat.min_self]
  · intro x hx
    rw [List.drop_append] at hx
    have hd0 : (t.Responses.elems.take k).drop k = [] := by simp
    rw [hd0, List.nil_append] at hx
    have := List.eq_of_mem_replicate (List.mem_of_mem_drop hx)
    subst this
    exact ⟨rfl, rfl⟩

/-- The hypotheses are met by `undeleted`, eleven bytes of it. -/
example : undeleted.wire 0 = [0, 0, 0, 2, 0, 1, 0x61, 0, 29, 0, 1, 0x62, 0, 3] ∧
    undeletedCut.rest = (undeleted.wire (version olderBroker .DeleteTopics)).take 11 ∧
    (Api.keeps .DeleteTopics).cut 0 11 undeleted =
      ({ Responses := some [{ Name := [0x61], ErrorCode := 29 }, {}] } : Msg.DeleteTopicsResponse) := by
  refine ⟨by decide +kernel, by decide +kernel, ?_⟩
  rfl

/-- There are methods of which the full claim holds. -/
theorem C89_heartbeat (b : Broker) (h : version b .Heartbeat < 1) : C89_statement b .Heartbeat := by
  intro reply r e hr
  cases reply with
  | none => cases hr; rfl
  | some d =>
    revert hr
    have hv : ¬(version b .Heartbeat ≥ 1) := by
      intro hc; exact absurd h (Int16.not_lt.2 hc)
    simp only [Broker.returned, Api.keeps, Msg.HeartbeatResponse.keeps, Msg.HeartbeatResponse.decodeK, KDec.andThen,
      KDec.onlyIf, KDec.field]
    rw [if_neg hv]
    simp only
    cases Dec.int16 d with
    | ok x d' => intro hr; cases hr
    | panic => intro hr; cases hr
    | err e' d' => intro hr; cases hr; rfl

end Kafka.Props
