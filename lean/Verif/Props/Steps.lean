import Verif.Gen.Works
import Verif.Gen.WorkApi
import Verif.Props.Memory
/-!
Property C87: the steps taken while bytes are decoded.

The counting is that of Verif/Message/Work.lean: calls of methods of `Decoder`, times round loops, bytes copied.
-/
namespace Kafka.Props

/-- A message type with its `Decode`, counting steps. -/
abbrev Counted := Σ M : MsgType, Int16 → M.T → ADec M.T

/-- The 218 structures of message/messages.gen.go are all there. -/
theorem C87_all : Msg.works.map (·.1) = Msg.all.map (·.1) := Msg.works_all

/-- Counting aside, it is `Decode`. -/
theorem C87_counts (p : Counted) (hp : p ∈ Msg.works) (v : Int16) (t : p.1.T) (d : Decoder) :
    (p.2 v t d).1 = p.1.decode v t d := Msg.works_erases p hp v t d

/-- Whatever the bytes and whatever is decoded into, at most two steps for each byte there is, and one. -/
theorem C87_steps (p : Counted) (hp : p ∈ Msg.works) (v : Int16) (t : p.1.T) (d : Decoder) (hd : d.Valid) :
    (p.2 v t d).2 ≤ 2 * d.rest.length + 1 := by
  have h := Msg.works_spends p hp v t d hd
  rcases e : p.2 v t d with ⟨x, n⟩
  rw [e] at h
  cases x with
  | ok r d' => obtain ⟨c, _, h1, h2⟩ := h; dsimp only; omega
  | err e d' => exact h
  | panic => exact h

/-- When it succeeds, at most two for each byte of the message. -/
theorem C87_ok (p : Counted) (hp : p ∈ Msg.works) (v : Int16) (t : p.1.T) (d : Decoder) (hd : d.Valid) {r : p.1.T} {d' : Decoder}
    (h : p.1.decode v t d = .ok r d') : ∃ n, d' = d.skip n ∧ n ≤ d.rest.length ∧ (p.2 v t d).2 ≤ 2 * n := by
  have h1 := C87_counts p hp v t d
  have h2 := Msg.works_spends p hp v t d hd
  rw [h] at h1
  rcases e : p.2 v t d with ⟨x, n⟩
  rw [e] at h1 h2
  dsimp only at h1
  subst h1
  exact h2

/-- The steps taken in decoding the bytes after the id of a reply. -/
def steps (b : Broker) (a : Api) (d : Decoder) : Nat := (a.decodeW (version b a) d).2

/-- So of the methods of `Broker`: what they do with a reply, counting aside, … -/
theorem C87_reply_counts (b : Broker) (a : Api) (req : a.req.T) (d : Decoder) :
    (a.decodeW (version b a) d).1 = (b.call a req).decode d := by
  rw [C19_response]
  exact a.decodeW_erases _ d

/-- … takes at most two steps for each byte of it, and one. -/
theorem C87_reply (b : Broker) (a : Api) (d : Decoder) (hd : d.Valid) : steps b a d ≤ 2 * d.rest.length + 1 := by
  have h := a.decodeW_spends (version b a) d hd
  unfold steps
  rcases e : a.decodeW (version b a) d with ⟨x, n⟩
  rw [e] at h
  cases x with
  | ok r d' => obtain ⟨c, _, h1, h2⟩ := h; dsimp only; omega
  | err e d' => exact h
  | panic => exact h

/-- Also of the replies that make a method ask for an array of 2147483647 elements (C64): they are given up on after at
most 47 steps. -/
theorem C87_bomb {b : Broker} {a : Api} (h0 : 0 ≤ version b a) (h1 : (version b a).toInt ≤ a.protocolMax)
    (ha : hasArray (version b a) (Protocol.response a) = true) :
    ∃ d : Decoder, d.Valid ∧ 2 ^ 31 - 1 ≤ asked b a d ∧ steps b a d ≤ 47 := by
  obtain ⟨d, hd, hl, hm⟩ := C64_array_fails h0 h1 ha
  have := C87_reply b a d hd
  exact ⟨d, hd, hm, by omega⟩

/-- The bound is met: no bytes in place of a Heartbeat reply are one step. -/
theorem C87_tight (b : Broker) : steps b .Heartbeat (newDecoder [] 0) = 1 := by
  unfold steps
  show (Msg.HeartbeatResponse.decodeW _ {} _).2 = 1
  unfold Msg.HeartbeatResponse.decodeW ADec.andThen ADec.onlyIf
  split <;> rfl

/-- A ListGroups reply with two groups is decoded in 16 steps, of 22 bytes: a field, the length of the array, twice
round the loop, four strings and their eight bytes. -/
example : ∃ (r : Msg.ListGroupsResponse) (d' : Decoder),
    Api.decodeW .ListGroups 0 (newDecoder [0, 0, 0, 0, 0, 2, 0, 1, 65, 0, 3, 66, 67, 68, 0, 2, 69, 70, 0, 2, 71, 72] 22) = (.ok r d', 16) :=
  ⟨_, _, rfl⟩

/-- A type as in the hypotheses. -/
example : ∃ p ∈ Msg.works, p.1.name = "MetadataResponse" :=
  ⟨⟨Msg.MetadataResponse.type, Msg.MetadataResponse.decodeW⟩,
    List.mem_flatten.2 ⟨Msg.workMetadata, by simp [Msg.worksByApi], by simp [Msg.workMetadata]⟩, rfl⟩

/-- Times round a loop are counted also when nothing is read in them: the members of a LeaveGroup request read nothing
below version 3.  (`LeaveGroupRequest.Decode` does not decode them at these versions, message/messages.gen.go:4426.) -/
theorem loop_free (n : Nat) (d : Decoder) : (WDec.loop (Msg.MemberIdentity13.decodeW 0 {}) n d).2 = n := by
  have h : ∀ d, Msg.MemberIdentity13.decodeW 0 {} d = (.ok {} d, 0) := fun d => rfl
  induction n generalizing d with
  | zero => rfl
  | succ n ih =>
    have e := ih d
    unfold WDec.loop ADec.bind ADec.make
    rw [h]
    dsimp only
    rcases e' : WDec.loop (Msg.MemberIdentity13.decodeW 0 {}) n d with ⟨r, m⟩
    rw [e'] at e
    dsimp only at e
    subst e
    cases r with
    | ok a d' => simp [ADec.pure, ADec.free]; omega
    | err e d' => simp; omega
    | panic => simp; omega

end Kafka.Props
