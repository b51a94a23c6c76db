import Verif.Conn.Exchange
import Verif.Props.EndToEnd
/-!
Property C50: byte slices in a reply keep their contents after the method has returned.
-/
namespace Kafka.Props

open Conn

/-- The full claim: in every reachable state, in a reply `d` that a call has been given, every slice that
`Decoder.Bytes` returned, being the bytes `a` to `b` of the buffer, still has the contents it was returned
with. -/
def C50_statement (P : Params) : Prop :=
  ∀ s, Conn.Reach P Conn.Any s → ∀ (c : Nat) (d d' : Decoder) (o a b : Int) (v : List Byte),
    (s.calls c).pc = .done (.reply d) → 4 ≤ o →
    Dec.bytesAt { d with offset := o } = .ok (a, b) d' → Dec.bytes { d with offset := o } = .ok (some v) d' →
    goSlice s.memory a b = some v

/-- True as long as no further byte is read from the ring buffer: from the moment at which `messageLoop` has
decoded the reply and is about to hand it over, in all schedules. -/
theorem C50_partial {P : Params} {ok : Conn.State → Act → Prop} {s s' : Conn.State} (h : Conn.Reach P ok s) {d : Decoder}
    {c : Nat} (hd : s.mpc = .send d c) {as : List Act} (hr : Conn.run P as s = some s')
    (hg : s'.ring.got = s.ring.got) {d' : Decoder} {o a b : Int} {v : List Byte}
    (ha : Dec.bytesAt { d with offset := o } = .ok (a, b) d')
    (hb : Dec.bytes { d with offset := o } = .ok (some v) d') : goSlice s'.memory a b = some v := by
  have h0 : s.memory = d.raw := by
    rw [h.memory d (by rw [hd]; rfl)]
    simp [State.memory, hd]
  have h1 := run_inv (P := P) (I := fun x => (Frames P x ∧ Tokens x ∧ Locks x) ∧ s.ring.got <+: x.ring.got ∧ (x.ring.got = s.ring.got → x.memory = d.raw))
    (ok := fun _ => True) (fun x x' a hi _ ht => ⟨⟨hi.1.1.trans hi.1.2.1 ht, hi.1.2.1.trans hi.1.2.2 ht, hi.1.2.2.trans ht⟩, ?_⟩) as (fun _ _ => trivial)
    ⟨⟨h.frames, h.tokens, h.locks⟩, List.prefix_rfl, fun _ => h0⟩ hr
  · rw [h1.2.2 hg]
    obtain ⟨w, hw, hw'⟩ := Dec.bytes_at ha
    rw [hw'] at hb
    cases hb
    exact hw
  · obtain ⟨⟨hf, _⟩, hi⟩ := hi
    rcases memory_trans hf ht with ⟨e1, e2⟩ | ⟨y, e⟩
    · rw [e1, e2]; exact hi
    · rw [e]
      refine ⟨hi.1.trans (List.prefix_append _ _), fun hc => ?_⟩
      have l1 := hi.1.length_le
      have l2 := congrArg List.length hc
      simp only [List.length_append, List.length_cons, List.length_nil] at l2
      omega

/-! ### Examples -/

deriving instance DecidableEq for Conn.Outcome, Conn.CPc, Conn.MPc

def sasl : Broker := { apiVersion := {}, config := {} }

/-- Call `c`, which is given correlation id `id`, asks for authentication and is answered with the bytes `x`, `y`. -/
def authenticate (c : Nat) (id : Int32) (x y : Byte) : List Act :=
  [.start c (brokerJob sasl .SaslAuthenticate ({} : Msg.SaslAuthenticateRequest))] ++ List.replicate 6 (.call c) ++
  [.write c (written sasl .SaslAuthenticate ({} : Msg.SaslAuthenticateRequest) id).length] ++
  List.replicate 2 (.call c) ++
  [.read ([0, 0, 0, 14] ++ Wire.int32 id ++ [0, 0, 0, 0, 0, 0, 0, 2, x, y])] ++
  List.replicate 22 (.ring .w) ++ [.readNext]

/-- `messageLoop` reads a reply and decodes it. -/
def dispatch : List Act :=
  [.message] ++ List.replicate 8 (.ring .r) ++ [.message] ++ List.replicate 18 (.ring .r) ++ List.replicate 6 .message

/-- One call is answered; `messageLoop` is about to hand the reply over. -/
def authenticated : List Act := authenticate 0 1 1 2 ++ dispatch

/-- The first call returns; then a second call is answered. -/
def authenticatedTwice : List Act :=
  authenticated ++ [.message, .call 0] ++ authenticate 1 2 3 4 ++ dispatch ++ [.message, .call 1]

/-- Sizes for the examples. -/
def large : Params := ⟨64, 32⟩

/-- The reply with bytes `x`, `y`, as given to the decoder. -/
def saslReply (id x y : Byte) : Decoder :=
  ⟨[0, 0, 0, id, 0, 0, 0, 0, 0, 0, 0, 2, x, y] ++ List.replicate 18 0, 14, 4⟩

/-- The method returns the bytes 1, 2, which are the bytes 12 and 13 of the buffer. -/
example : (match (sasl.call .SaslAuthenticate ({} : Msg.SaslAuthenticateRequest)).decode (saslReply 1 1 2) with
    | .ok (r : Msg.SaslAuthenticateResponse) _ => r.AuthBytes
    | _ => none) = some [1, 2] ∧
    (match Dec.bytesAt { saslReply 1 1 2 with offset := 8 } with | .ok r _ => some r | _ => none) = some (12, 14) := by
  decide +kernel

/-- The hypotheses of `C50_partial` are met after the first call is answered, up to and beyond its return. -/
example : (Conn.run large authenticated (Conn.init large)).map (fun s => s.mpc) = some (.send (saslReply 1 1 2) 0) ∧
    ((Conn.run large authenticated (Conn.init large)).bind fun s =>
      (Conn.run large [.message, .call 0, .message] s).map fun s' =>
        ((s'.calls 0).pc, decide (s'.ring.got = s.ring.got), goSlice s'.memory 12 14)) =
      some (.done (.reply (saslReply 1 1 2)), true, some [1, 2]) := by
  decide +kernel

/-- The reply to call `id` with bytes `x`, `y`. -/
def saslPayload (id : Int32) (x y : Byte) : List Byte := Wire.int32 id ++ [0, 0, 0, 0, 0, 0, 0, 2, x, y]

theorem sasl_length (id : Int32) (x y : Byte) : (saslPayload id x y).length = 14 := by
  simp [saslPayload, wire_int32, be32]

theorem sasl_slice (id : Int32) (x y : Byte) (t : List Byte) : goSlice (saslPayload id x y ++ t) 12 14 = some [x, y] := by
  simp only [goSlice, List.length_append, sasl_length]
  rw [if_pos (by omega)]
  simp [saslPayload, wire_int32, be32]

theorem sasl_bytes (id : Int32) (x y : Byte) (t : List Byte) :
    ∃ d', Dec.bytesAt ⟨saslPayload id x y ++ t, 14, 8⟩ = .ok (12, 14) d' ∧
      Dec.bytes ⟨saslPayload id x y ++ t, 14, 8⟩ = .ok (some [x, y]) d' := by
  have g1 : goSliceFrom (saslPayload id x y ++ t) 8 = some (0 :: 0 :: 0 :: 2 :: x :: y :: t) := by
    simp only [goSliceFrom, List.length_append, sasl_length]
    rw [if_pos (by omega)]
    simp [saslPayload, wire_int32, be32]
  have g2 := sasl_slice id x y t
  generalize saslPayload id x y ++ t = raw at g1 g2 ⊢
  have w1 : wrap64 6 = 6 := by decide
  have w2 : wrap64 12 = 12 := by decide
  have w3 : wrap64 2 = 2 := by decide
  have w4 : wrap64 14 = 14 := by decide
  have b1 : beUint32 (0#8 :: 0#8 :: 0#8 :: 2#8 :: x :: y :: t) = some 2#32 := rfl
  have e : Dec.bytesAt ⟨raw, 14, 8⟩ = .ok (12, 14) ⟨raw, 14, 14⟩ := by
    simp [Dec.bytesAt, Dec.int32, Dec.remains, Dec.expr, Dec.advance, Bind.bind, Dec.bind, Dec.pure, g1, g2,
      w1, w2, w3, w4, b1]
  obtain ⟨v, h1, h2⟩ := Dec.bytes_at e
  rw [g2] at h1
  cases h1
  exact ⟨_, e, h2⟩

theorem sasl_decodes {d : Decoder} {id : Int32} {x y : Byte} (hd : Holds d (saslPayload id x y)) :
    ∃ r d', (sasl.call .SaslAuthenticate ({} : Msg.SaslAuthenticateRequest)).decode d = .ok r d' := by
  let z : Protocol.Val := .struct [("ErrorCode", .int16 0), ("ErrorMessage", .str (some [])), ("AuthBytes", .bytes (some [x, y]))]
  have e : saslPayload id x y =
      Wire.int32 id ++ ((Protocol.response .SaslAuthenticate).wire false 0 z ++ []) := by
    have e1 : Wire.bigEndian 2 0 = [0, 0] := by decide
    have e2 : Wire.bigEndian 4 2 = [0, 0, 0, 2] := by decide
    simp [saslPayload, Protocol.response, Protocol.SaslAuthenticateResponse, Protocol.field, Protocol.nullable,
      Protocol.done, Protocol.Present, Protocol.Fields.wire, Protocol.Ty.wire, z, Protocol.Val.get, List.lookup, e1, e2]
  have h4 : (Wire.int32 id).length = 4 := by rw [wire_int32]; rfl
  have hr : d.rest = (Protocol.response .SaslAuthenticate).wire false 0 z ++ [] := by
    rw [hd.rest, e, List.drop_left' h4]
  have hok := (Api.resp_decodes .SaslAuthenticate 0 (by decide) (by simp) z
    (by simp [Protocol.response, Protocol.SaslAuthenticateResponse, Protocol.field, Protocol.nullable, Protocol.done, Protocol.Present, Protocol.Fields.Valid, Protocol.Ty.Valid, z,
      Protocol.Val.get, List.lookup])).1 d (hd.valid (by rw [e]; simp [h4])) [] hr
  exact ⟨_, _, (congrFun (C19_response sasl .SaslAuthenticate ({} : Msg.SaslAuthenticateRequest)) d).trans hok⟩

/-- When the second reply has been read, the slice returned by the first call holds the bytes of the second. -/
theorem C50_fails {P : Params} (hN : 20 ≤ P.ring) (hP : 14 ≤ P.buf) (hS : P.buf < 2 ^ 62) : ¬ C50_statement P := by
  intro h
  have hold : ∀ {id x y} {d : Decoder}, Given P.buf (saslPayload id x y) d → Holds d (saslPayload id x y) :=
    fun g => ⟨g.raw, g.length, g.offset, by rw [g.size]; omega⟩
  have hl := sasl_length
  -- the first call
  obtain ⟨s1, l1, h1⟩ := (Conn.Calm.init (P := P) (by omega)).ask (c := 0) rfl
    (brokerJob sasl .SaslAuthenticate ({} : Msg.SaslAuthenticateRequest))
  obtain ⟨s2, l2, d, h2⟩ := h1.calm.answer (by omega) (by omega) (l1.reach .init) (id := 1) h1.registered h1.pc
    (payload := saslPayload 1 1 2) (List.prefix_append _ _) (by rw [hl]; omega) (by rw [hl]; omega) (by rw [hl]; omega)
    (fun d g => by
      obtain ⟨r, d', e⟩ := sasl_decodes (hold g)
      rw [h1.job]
      simp only [brokerJob, e])
  have r2 := (l1.trans l2).reach .init
  -- the second call
  obtain ⟨s3, l3, h3⟩ := h2.calm.ask (c := 1) (by rw [h2.others 1 (by decide), h1.others 1 (by decide)]; rfl)
    (brokerJob sasl .SaslAuthenticate ({} : Msg.SaslAuthenticateRequest))
  have hid : s2.id + 1 = 2 := by rw [h2.id, h1.id]; rfl
  obtain ⟨s4, l4, d2, h4⟩ := h3.calm.answer (by omega) (by omega) (l3.reach r2) (id := s2.id + 1) h3.registered h3.pc
    (payload := saslPayload (s2.id + 1) 3 4) (List.prefix_append _ _) (by rw [hl]; omega) (by rw [hl]; omega) (by rw [hl]; omega)
    (fun d g => by
      obtain ⟨r, d', e⟩ := sasl_decodes (hold g)
      rw [h3.job]
      simp only [brokerJob, e])
  have hpc : (s4.calls 0).pc = .done (.reply d) := by
    rw [h4.others 0 (by decide), h3.others 0 (by decide)]; exact h2.pc
  obtain ⟨t, ht⟩ := h2.given.raw
  obtain ⟨d', e1, e2⟩ := sasl_bytes 1 1 2 t
  have hd : { d with offset := 8 } = (⟨saslPayload 1 1 2 ++ t, 14, 8⟩ : Decoder) := by
    rw [ht]
    have := h2.given.length
    rw [hl] at this
    cases d; simp_all
  have h5 := h s4 ((l3.trans l4).reach r2) 0 d d' 8 12 14 [1, 2] hpc (by decide) (by rw [hd]; exact e1) (by rw [hd]; exact e2)
  obtain ⟨t2, ht2⟩ := h4.given.raw
  rw [h4.memory, ← ht2, sasl_slice] at h5
  exact absurd h5 (by decide)

end Kafka.Props
