import Verif.Props.Conn
import Verif.Props.Protocol
/-!
Property C49: what a method returns, from the request to the reply, through the connection with all its
goroutines and the ring buffer.
-/
namespace Kafka.Props

open Conn
open Protocol (flexible requestFrame replyPayload Val Fields)

/-- Call `c` is a call of method `a` of `b`; the broker answers it with `x`: among the frames of the bytes
received, those with the id of `c` are that reply. -/
structure Answered (b : Broker) (a : Api) (req : a.req.T) (c : Nat) (x : Val) (s : Conn.State) : Prop where
  job : (s.calls c).job = brokerJob b a req
  answer : ∀ p ∈ splitStream s.received, Wire.int32 (s.calls c).id <+: p →
    p = replyPayload a (version b a) (s.calls c).id x

/-- The full claim: if the broker answers a call with any reply the protocol allows at the negotiated version,
and the call returns through its reply, it has sent its request as the protocol prescribes and returns the
values in that reply. -/
def C49_statement (P : Params) (ok : Conn.State → Act → Prop) : Prop :=
  ∀ s, Conn.Reach P ok s → ∀ (b : Broker) (a : Api) (req : a.req.T) (c : Nat) (x : Val) (d : Decoder),
    Answered b a req c x s → 0 ≤ version b a → (version b a).toInt ≤ a.protocolMax →
    a.reqLayout.Fits (version b a) req → (Protocol.response a).Valid true (version b a) x →
    (s.calls c).pc = .done (.reply d) →
    (s.calls c).sent = requestFrame a (version b a) (s.calls c).id b.config.clientID (a.reqVal req) ∧
    ∃ r d', (b.call a req).decode d = .ok r d' ∧ (Protocol.response a).shows (version b a) x (a.respVal r) = true

/-- True at versions that are not flexible, for requests and replies as in C47 and C48, in all schedules in
which the goroutines woken in the ring buffer do not run ahead (see C25). -/
theorem C49_partial {P : Params} (hN : 2 ≤ P.ring) (hP : 4 ≤ P.buf) (hS : P.buf < 2 ^ 62) {s : Conn.State}
    (h : Conn.Reach P (PacedConn P) s) {b : Broker} {a : Api} {req : a.req.T} {c : Nat} {x : Val} {d : Decoder}
    (ha : Answered b a req c x s) (hv : 0 ≤ version b a) (hflex : flexible a (version b a) = false)
    (hcommit : a = .OffsetCommit → version b a ≠ 1) (hshut : ¬ (a = .ControlledShutdown ∧ version b a = 0))
    (hfit : a.reqLayout.Fits (version b a) req) (hfull : a.reqFull (version b a) req)
    (hx : (Protocol.response a).Valid false (version b a) x) (hd : (s.calls c).pc = .done (.reply d)) :
    (s.calls c).sent = requestFrame a (version b a) (s.calls c).id b.config.clientID (a.reqVal req) ∧
    ∃ r d', (b.call a req).decode d = .ok r d' ∧ d'.offset = d'.length ∧
      (Protocol.response a).shows (version b a) x (a.respVal r) = true := by
  obtain ⟨p, hp, h1, h2, h3, h4, h5⟩ := h.frames.done c d hd
  have hsent := (h.wires.flushed c (by rw [hd]; rfl)).2
  rw [CState.frame, ha.job] at hsent
  refine ⟨hsent.trans (C47_partial b a req _ hv hfit hflex hcommit hshut hfull).2, ?_⟩
  have hin : p ∈ splitStream s.received := (C37_partial hN hP s h).subset hp
  have e := ha.answer p hin h1
  subst e
  exact C48_partial b a req _ x d hv hflex hx ⟨h2, h3, h4, by omega⟩

/-! ### Examples -/

/-- Sizes for the examples. -/
def medium : Params := ⟨32, 16⟩

def beating (v : Int16) : Broker := { apiVersion := { Heartbeat := v }, config := {} }

/-- A heartbeat that is answered. -/
def heartbeat (v : Int16) (reply : List Byte) : List Act :=
  [.start 0 (brokerJob (beating v) .Heartbeat ({} : Msg.HeartbeatRequest))] ++ List.replicate 6 (.call 0) ++
  [.write 0 (written (beating v) .Heartbeat ({} : Msg.HeartbeatRequest) 1).length] ++
  List.replicate 2 (.call 0) ++ [.read reply] ++ List.replicate (reply.length + 4) (.ring .w) ++ [.readNext] ++
  [.message] ++ List.replicate 8 (.ring .r) ++ [.message] ++ List.replicate reply.length (.ring .r) ++ [.message] ++
  List.replicate 6 .message ++ [.call 0]

/-- What is returned, and what was received. -/
def returned (as : List Act) : Option (Decoder × Int32 × List Byte × List (List Byte)) :=
  (Conn.run medium as (Conn.init medium)).bind fun s =>
    match (s.calls 0).pc with
    | .done (.reply d) => some (d, (s.calls 0).id, (s.calls 0).sent, splitStream s.received)
    | _ => none

theorem returned_spec {as : List Act} {d : Decoder} {id : Int32} {sent : List Byte} {fs : List (List Byte)}
    (h : returned as = some (d, id, sent, fs)) :
    ∃ s, Conn.run medium as (Conn.init medium) = some s ∧ (s.calls 0).pc = .done (.reply d) ∧ (s.calls 0).id = id ∧
      (s.calls 0).sent = sent ∧ splitStream s.received = fs := by
  obtain ⟨s, h1, h2⟩ := Option.bind_eq_some_iff.1 h
  split at h2
  · rename_i d' hd
    simp only [Option.some.injEq, Prod.mk.injEq] at h2
    exact ⟨s, h1, by rw [hd, h2.1], h2.2.1, h2.2.2.1, h2.2.2.2⟩
  · cases h2

theorem heartbeat_job {v : Int16} {reply : List Byte} {s : Conn.State}
    (h : Conn.run medium (heartbeat v reply) (Conn.init medium) = some s) :
    (s.calls 0).job = brokerJob (beating v) .Heartbeat ({} : Msg.HeartbeatRequest) := by
  simp only [heartbeat, List.append_assoc, List.cons_append, List.nil_append, Conn.run] at h
  obtain ⟨s1, h1, h2⟩ := Option.bind_eq_some_iff.1 h
  have e : (s1.calls 0).pc = .add ∧ (s1.calls 0).job = brokerJob (beating v) .Heartbeat ({} : Msg.HeartbeatRequest) := by
    cases h1; exact ⟨rfl, rfl⟩
  refine (run_inv (I := fun s => (s.calls 0).pc ≠ .absent ∧ (s.calls 0).job = _) (ok := fun _ => True)
    (fun s s' a h _ ht => ?_) _ (fun _ _ => trivial) ⟨by rw [e.1]; simp, e.2⟩ h2).2
  cases ht <;> simp only [State.set] <;> grind

/-- The heartbeat at version 0 is answered with error code 25 and meets the hypotheses. -/
example : ∃ s d, Conn.Reach medium (PacedConn medium) s ∧ (s.calls 0).pc = .done (.reply d) ∧
    Answered (beating 0) .Heartbeat ({} : Msg.HeartbeatRequest) 0 (.struct [("ErrorCode", .int16 25)]) s ∧
    splitStream s.received = [[0, 0, 0, 1, 0, 25]] := by
  have h : returned (heartbeat 0 [0, 0, 0, 6, 0, 0, 0, 1, 0, 25]) =
      some (⟨[0, 0, 0, 1, 0, 25, 0, 0, 0, 0, 0, 0, 0, 0, 0, 0], 6, 4⟩, 1,
        written (beating 0) .Heartbeat ({} : Msg.HeartbeatRequest) 1, [[0, 0, 0, 1, 0, 25]]) := by decide +kernel
  have ht : ∀ x ∈ connTrace medium (heartbeat 0 [0, 0, 0, 6, 0, 0, 0, 1, 0, 25]) (Conn.init medium),
      PacedConn medium x.1 x.2 := by decide +kernel
  obtain ⟨s, h1, h2, h3, _, h5⟩ := returned_spec h
  refine ⟨s, _, connReach_trace _ .init ht h1, h2, ⟨heartbeat_job h1, ?_⟩, h5⟩
  rw [h3, h5]
  decide +kernel

/-- A heartbeat at version 4, which is flexible, is answered with a throttle time of 1 ms. -/
def throttled : Val := .struct [("ThrottleTimeMs", .int32 1), ("ErrorCode", .int16 0)]

/-- The same bytes, read as if the version were not flexible. -/
def unthrottled : Val := .struct [("ThrottleTimeMs", .int32 0), ("ErrorCode", .int16 256)]

theorem throttled_decodes {d : Decoder} (hd : Holds d (replyPayload .Heartbeat 4 1 throttled)) :
    ∃ d', ((beating 4).call .Heartbeat ({} : Msg.HeartbeatRequest)).decode d =
      .ok (Api.respOf .Heartbeat 4 unthrottled) d' := by
  have e : replyPayload .Heartbeat 4 1 throttled =
      Wire.int32 1 ++ ((Protocol.response .Heartbeat).wire false 4 unthrottled ++ [0, 0]) := by decide +kernel
  have h4 : (Wire.int32 1).length = 4 := by rw [wire_int32]; rfl
  have hr : d.rest = (Protocol.response .Heartbeat).wire false 4 unthrottled ++ [0, 0] := by
    rw [hd.rest, e, List.drop_left' h4]
  have hok := (Api.resp_decodes .Heartbeat 4 (by decide) (by simp) unthrottled
    (by simp [Protocol.response, Protocol.HeartbeatResponse, Protocol.field, Fields.Valid, Protocol.Ty.Valid, unthrottled,
      Val.get, List.lookup])).1 d (hd.valid (by rw [e]; simp [h4])) [0, 0] hr
  exact ⟨_, (congrFun (C19_response (beating 4) .Heartbeat ({} : Msg.HeartbeatRequest)) d).trans hok⟩

/-- The method returns another value, on an otherwise idle connection. -/
theorem C49_fails {P : Params} (hN : 18 ≤ P.ring) (hP : 12 ≤ P.buf) (hS : P.buf < 2 ^ 62) : ¬ C49_statement P Conn.Any := by
  intro h
  obtain ⟨s1, l1, h1⟩ := (Conn.Calm.init (P := P) (by omega)).ask (c := 0) rfl
    (brokerJob (beating 4) .Heartbeat ({} : Msg.HeartbeatRequest))
  have hlen : (replyPayload .Heartbeat 4 1 throttled).length = 12 := by decide +kernel
  have hold : ∀ d, Given P.buf (replyPayload .Heartbeat 4 1 throttled) d → Holds d (replyPayload .Heartbeat 4 1 throttled) :=
    fun d g => ⟨g.raw, g.length, g.offset, by rw [g.size]; omega⟩
  have hid : Wire.int32 1 <+: replyPayload .Heartbeat 4 1 throttled := by decide +kernel
  obtain ⟨s2, l2, d, h2⟩ := h1.calm.answer (by omega) (by omega) (l1.reach .init) (id := 1) h1.registered h1.pc
    (payload := replyPayload .Heartbeat 4 1 throttled) hid (by omega) (by omega) (by omega) (fun d g => by
      obtain ⟨d', e⟩ := throttled_decodes (hold d g)
      rw [h1.job]
      simp only [brokerJob, e])
  have hcid : (s2.calls 0).id = 1 := h2.callId.trans h1.callId
  have hrec : splitStream s2.received = [replyPayload .Heartbeat 4 1 throttled] := by
    rw [h2.received, h1.received]
    have e := splitStream_frame (Int32.ofInt (replyPayload .Heartbeat 4 1 throttled).length)
      (replyPayload .Heartbeat 4 1 throttled) [] (by rw [hlen]; rfl)
    rw [List.append_nil] at e
    exact e.trans (by rw [splitStream.eq_def])
  obtain ⟨_, r, d', h6, h7⟩ := h s2 ((l1.trans l2).reach .init) (beating 4) .Heartbeat ({} : Msg.HeartbeatRequest) 0
    throttled d ⟨h2.job.trans h1.job, fun p hp _ => by
      rw [hrec, List.mem_singleton] at hp
      rw [hp, hcid]; rfl⟩ (by decide) (by decide)
    (by constructor <;> simp [FitsString])
    (by simp [Protocol.response, Protocol.HeartbeatResponse, Protocol.field, Fields.Valid, Protocol.Ty.Valid, throttled,
      Val.get, List.lookup]) h2.pc
  obtain ⟨d'', e⟩ := throttled_decodes (hold d h2.given)
  rw [e] at h6
  cases h6
  exact absurd h7 (by decide +kernel)

end Kafka.Props
