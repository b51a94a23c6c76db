import Verif.Props.Server
import Verif.Props.Decode
/-!
Property C96: what a broker that uses `Decode` does with any bytes at all in place of a request, and which requests can crash it.
It is for requests what C60 (Verif/Props/Decode.lean) is for replies.

The specification is `onWire`: a reader of the schemas of the protocol (Verif/Protocol/Parse.lean) goes over the header and then
over the request.
-/
namespace Kafka.Props

open Protocol (Parsed Val Fields flexible requestHeaderVersion)

/-- What the bytes are as a header and a request of the protocol. -/
def onWire (a : Api) (v : Int16) (bs : List Byte) : Parsed (Val × Val) :=
  (Protocol.RequestHeader.message (requestHeaderVersion a v) bs).next bs fun h bs =>
    ((Protocol.request a).message v bs).next bs fun x _ => Parsed.value (h, x)

/-- `reading` does with the bytes what the protocol says: it comes to the same header and the same request and to the end of
them, or fails because there are not enough bytes, or panics because of a length that cannot be. -/
def Follows (a : Api) (v : Int16) (d : Decoder) : Prop :=
  match onWire a v d.rest with
  | .ok (h, x) n => ∃ t r, reading a v d = .ok (t, r) (d.skip n) ∧ n ≤ d.rest.length ∧
      Protocol.RequestHeader.shows (requestHeaderVersion a v) h t.val = true ∧
      (Protocol.request a).shows v x (a.reqAsked r) = true
  | .short => ∃ d', reading a v d = .err .shortBuffer d'
  | .bad => reading a v d = .panic

/-- The full claim: all versions that are not flexible, and all bytes. -/
def C96_statement : Prop :=
  ∀ (a : Api) (v : Int16) (d : Decoder), 0 ≤ v → v.toInt ≤ a.protocolMax → flexible a v = false → d.Valid → Follows a v d

/-- The names of the fields of one structure are different, in all requests. -/
theorem request_distinct (a : Api) : (Protocol.request a).distinct = true := by cases a <;> decide +kernel

theorem Parses.value {β : Type} {α : Type} {m : Dec α} {p : List Byte → Parsed β} {g : β → α} (h : Protocol.Parses m p g)
    {γ δ : Type} (f : β → γ) (k : α → δ) (g' : γ → δ) (e : ∀ x, g' (f x) = k (g x)) :
    Protocol.Parses (k <$> m) (fun bs => (p bs).next bs fun x _ => Parsed.value (f x)) g' :=
  Protocol.Parses.bind (k := fun a => pure (k a)) h fun x => Protocol.Parses.pure _ _ _ (e x)

theorem reading_parses (a : Api) (v : Int16) (hv : 0 ≤ v) (hw : 0 ≤ requestHeaderVersion a v)
    (hcommit : a = .OffsetCommit → v ≠ 1) :
    Protocol.Parses (reading a v) (onWire a v)
      (fun p => (Msg.RequestHeader.of (requestHeaderVersion a v) p.1 {}, a.reqOf v p.2)) :=
  Protocol.Parses.bind (Msg.RequestHeader.parses hw {}) fun _ => Parses.value (a.req_parses v hv hcommit) _ _ _ fun _ => rfl

/-- A value comes from a value of each part. -/
theorem onWire_ok {a : Api} {v : Int16} {bs : List Byte} {h x : Val} {n : Nat} (e : onWire a v bs = .ok (h, x) n) :
    ∃ m k, Protocol.RequestHeader.message (requestHeaderVersion a v) bs = .ok h m ∧
      (Protocol.request a).message v (bs.drop m) = .ok x k ∧ n = m + k := by
  unfold onWire at e
  cases e1 : Protocol.RequestHeader.message (requestHeaderVersion a v) bs with
  | short => rw [e1] at e; simp [Parsed.next] at e
  | bad => rw [e1] at e; simp [Parsed.next] at e
  | ok h' m =>
    rw [e1] at e
    cases e2 : (Protocol.request a).message v (bs.drop m) with
    | short => simp [Parsed.next, e2] at e
    | bad => simp [Parsed.next, e2] at e
    | ok x' k =>
      simp only [Parsed.next, e2, Parsed.value, Parsed.ok.injEq, Prod.mk.injEq] at e
      obtain ⟨⟨rfl, rfl⟩, rfl⟩ := e
      exact ⟨m, k, rfl, e2, by omega⟩

/-- All but OffsetCommit at version 1. -/
theorem C96_partial (a : Api) (v : Int16) (d : Decoder) (hv : 0 ≤ v) (hflex : flexible a v = false)
    (hcommit : a = .OffsetCommit → v ≠ 1) (hd : d.Valid) : Follows a v d := by
  have hw : 0 ≤ requestHeaderVersion a v := by rcases header_version hflex with h | h <;> rw [h] <;> decide
  have h := reading_parses a v hv hw hcommit d hd
  unfold Follows
  split
  · next hh x n e =>
    rw [e] at h
    obtain ⟨m, k, e1, e2, _⟩ := onWire_ok e
    refine ⟨_, _, h.2, h.1, Msg.RequestHeader.shown hw hh ?_, a.req_shown v hv hcommit x ?_⟩
    · have ht := (Protocol.Ty.struct Protocol.RequestHeader).parse_typed (requestHeaderVersion a v)
        (by rw [Protocol.Ty.distinct]; decide +kernel) _ _ _ e1
      rwa [Protocol.Ty.Typed] at ht
    · have ht := (Protocol.Ty.struct (Protocol.request a)).parse_typed v
        (by rw [Protocol.Ty.distinct]; exact request_distinct a) _ _ _ e2
      rwa [Protocol.Ty.Typed] at ht
  · next e => rw [e] at h; exact h
  · next e => rw [e] at h; exact h

/-- The outcomes, one by one. -/
theorem C96_returns (a : Api) (v : Int16) (d : Decoder) (hv : 0 ≤ v) (hflex : flexible a v = false)
    (hcommit : a = .OffsetCommit → v ≠ 1) (hd : d.Valid) :
    (∃ t r d', reading a v d = .ok (t, r) d') ↔ ∃ h x n, onWire a v d.rest = .ok (h, x) n := by
  have h := C96_partial a v d hv hflex hcommit hd
  unfold Follows at h
  revert h
  rcases onWire a v d.rest with ⟨hh, x⟩ | _ | _ <;> intro h
  · obtain ⟨t, r, h, _⟩ := h; exact ⟨fun _ => ⟨_, _, _, rfl⟩, fun _ => ⟨_, _, _, h⟩⟩
  · obtain ⟨d', h⟩ := h; simp [h]
  · simp only at h; simp [h]

theorem C96_short (a : Api) (v : Int16) (d : Decoder) (hv : 0 ≤ v) (hflex : flexible a v = false)
    (hcommit : a = .OffsetCommit → v ≠ 1) (hd : d.Valid) :
    (∃ e d', reading a v d = .err e d') ↔ onWire a v d.rest = .short := by
  have h := C96_partial a v d hv hflex hcommit hd
  unfold Follows at h
  revert h
  rcases onWire a v d.rest with ⟨hh, x⟩ | _ | _ <;> intro h
  · obtain ⟨t, r, h, _⟩ := h; simp [h]
  · obtain ⟨d', h⟩ := h; simp [h]
  · simp only at h; simp [h]

theorem C96_panics (a : Api) (v : Int16) (d : Decoder) (hv : 0 ≤ v) (hflex : flexible a v = false)
    (hcommit : a = .OffsetCommit → v ≠ 1) (hd : d.Valid) :
    reading a v d = .panic ↔ onWire a v d.rest = .bad := by
  have h := C96_partial a v d hv hflex hcommit hd
  unfold Follows at h
  revert h
  rcases onWire a v d.rest with ⟨hh, x⟩ | _ | _ <;> intro h
  · obtain ⟨t, r, h, _⟩ := h; simp [h]
  · obtain ⟨d', h⟩ := h; simp [h]
  · simp only at h; simp [h]

/-- Every request but one can be given a header that crashes whoever reads it, by a length of the client id below -1, and these
ten bytes are enough, whatever comes after them. -/
theorem C96_crash_bytes (a : Api) (v : Int16) (d : Decoder) (tail : List Byte) (h1 : requestHeaderVersion a v = 1)
    (hd : d.Valid) (hr : d.rest = [0, 0, 0, 0, 0, 0, 0, 0, 0xFF, 0xFE] ++ tail) : reading a v d = .panic := by
  have h := Msg.RequestHeader.parses (v := requestHeaderVersion a v) (by rw [h1]; decide) {} d hd
  have e : (Protocol.Ty.struct Protocol.RequestHeader).parse (requestHeaderVersion a v) d.rest = .bad := by
    rw [hr, h1]
    rfl
  rw [e] at h
  exact bind_panic h

/-- No bytes whatever can crash the reader of a request exactly if it is ControlledShutdown at version 0, the one whose header
has no client id. -/
theorem C96_immune (a : Api) (v : Int16) (hv : 0 ≤ v) (hflex : flexible a v = false)
    (hcommit : a = .OffsetCommit → v ≠ 1) :
    (∀ d, d.Valid → reading a v d ≠ .panic) ↔ a = .ControlledShutdown ∧ v = 0 := by
  constructor
  · intro h
    by_cases h0 : a = .ControlledShutdown ∧ v = 0
    · exact h0
    have h1 : requestHeaderVersion a v = 1 := by
      unfold requestHeaderVersion
      rw [hflex]
      simp [h0]
    have hd : (newDecoder [0, 0, 0, 0, 0, 0, 0, 0, 0xFF, 0xFE] 10).Valid := newDecoder_valid (bs := [0, 0, 0, 0, 0, 0, 0, 0, 0xFF, 0xFE]) (by decide)
    exact absurd (C96_crash_bytes a v _ [] h1 hd rfl) (h _ hd)
  · rintro ⟨rfl, rfl⟩ d hd h
    rw [C96_panics _ _ d hv hflex hcommit hd] at h
    unfold onWire at h
    cases e1 : Protocol.RequestHeader.message (requestHeaderVersion .ControlledShutdown 0) d.rest with
    | short => rw [e1] at h; simp [Parsed.next] at h
    | bad =>
      exact (Protocol.Ty.struct Protocol.RequestHeader).safe_parse _ (by decide +kernel) _ e1
    | ok hh m =>
      rw [e1, next_bad_iff] at h
      cases e2 : (Protocol.request .ControlledShutdown).message 0 (d.rest.drop m) with
      | short => rw [e2] at h; simp [Parsed.next] at h
      | bad => exact (Protocol.Ty.struct (Protocol.request .ControlledShutdown)).safe_parse _ (by decide +kernel) _ e2
      | ok x k => rw [e2, next_bad_iff] at h; simp [Parsed.value] at h

/-- With a good header it is the request that matters: no bytes crash `Decode` of it exactly if it has no strings, byte strings or
arrays of scalars. -/
theorem C96_body_immune (a : Api) (v : Int16) (hv : 0 ≤ v) (hcommit : a = .OffsetCommit → v ≠ 1) :
    (∀ d, d.Valid → a.req.decode v a.req.zero d ≠ .panic) ↔ (Protocol.request a).safe v = true := by
  have hp := fun d hd => parses_panic (a.req_parses v hv hcommit) d hd
  constructor
  · intro h
    refine (Bool.eq_false_or_eq_true _).resolve_right fun hs => ?_
    obtain ⟨bs, hl, hb⟩ := (Protocol.Ty.struct (Protocol.request a)).unsafe_parse v (by rw [Protocol.Ty.safe]; exact hs)
    have hw : (Protocol.request a).weight < 2000 := by cases a <;> decide +kernel
    rw [Protocol.Ty.weight] at hl
    have hd : (newDecoder bs bs.length).Valid := newDecoder_valid (by omega)
    refine h _ hd ((hp _ hd).2 ?_)
    have e := hb []
    rw [List.append_nil] at e
    rwa [newDecoder_rest]
  · intro hs d hd h
    rw [hp d hd] at h
    exact (Protocol.Ty.struct (Protocol.request a)).safe_parse v (by rw [Protocol.Ty.safe]; exact hs) _ h

/-- They are these. -/
theorem C96_body_immune_list (a : Api) (v : Int16) (hv : 0 ≤ v) (hmax : v.toInt ≤ a.protocolMax)
    (hcommit : a = .OffsetCommit → v ≠ 1) :
    (∀ d, d.Valid → a.req.decode v a.req.zero d ≠ .panic) ↔
      a = .ControlledShutdown ∨ a = .ListGroups ∨ a = .ApiVersions ∧ v < 3 := by
  rw [C96_body_immune a v hv hcommit]
  obtain ⟨n, hn, rfl⟩ := upTo hv hmax
  have h : ∀ a : Api, ∀ n ≤ a.protocolMax, (Protocol.request a).safe (Int16.ofNat n) = true ↔
      a = .ControlledShutdown ∨ a = .ListGroups ∨ a = .ApiVersions ∧ Int16.ofNat n < 3 := by
    intro a; cases a <;> decide +kernel
  exact h a n hn

/-! ### OffsetCommit at version 1 -/

/-- A request to commit an offset at version 1 that ends after the first two bytes of its timestamp. -/
def commitCut : List Byte :=
  [0, 8, 0, 1, 0, 0, 0, 1, 0, 0] ++ [0, 0] ++ [0, 0, 0, 0] ++ [0, 0] ++ [0, 0, 0, 1] ++ [0, 1, 116] ++ [0, 0, 0, 1] ++
    [0, 0, 0, 0] ++ [0, 0, 0, 0, 0, 0, 0, 5] ++ [0, 0]

/-- It is taken for a whole request: the bytes are those of empty metadata. -/
theorem C96_commit_fails : onWire .OffsetCommit 1 commitCut = .short ∧
    ∃ r d', reading .OffsetCommit 1 (newDecoder commitCut commitCut.length) = .ok r d' ∧ d'.rest = [] := by
  refine ⟨rfl, ?_⟩
  have h : (match reading .OffsetCommit 1 (newDecoder commitCut commitCut.length) with
    | .ok _ d' => decide (d'.rest = [])
    | _ => false) = true := by decide +kernel
  revert h
  cases reading .OffsetCommit 1 (newDecoder commitCut commitCut.length) with
  | ok r d' => intro h; exact ⟨r, d', rfl, of_decide_eq_true h⟩
  | err e d' => intro h; cases h
  | panic => intro h; cases h

/-- The full claim is false. -/
theorem C96_fails : ¬ C96_statement := by
  intro h
  have hd : (newDecoder commitCut commitCut.length).Valid := newDecoder_valid (by decide)
  have h1 := h .OffsetCommit 1 _ (by decide) (by decide) (by decide) hd
  obtain ⟨h2, r, d', h3, _⟩ := C96_commit_fails
  unfold Follows at h1
  rw [newDecoder_rest, h2] at h1
  obtain ⟨d'', h4⟩ := h1
  rw [h3] at h4
  cases h4

/-! Examples: a Heartbeat request at version 0 of the member m of the group g in generation 7; the same without its last byte;
the same with a length of -2 in place of that of the group id. -/

example : onWire .Heartbeat 0 ([0, 12, 0, 0, 0, 0, 0, 3, 0, 1, 99] ++ [0, 1, 103, 0, 0, 0, 7, 0, 1, 109] ++ [1, 2]) =
    .ok (.struct [("RequestApiKey", .int16 12), ("RequestApiVersion", .int16 0), ("CorrelationId", .int32 3), ("ClientId", .str (some [99]))],
      .struct [("GroupId", .str (some [103])), ("GenerationId", .int32 7), ("MemberId", .str (some [109]))]) 21 := rfl
example : onWire .Heartbeat 0 ([0, 12, 0, 0, 0, 0, 0, 3, 0, 1, 99] ++ [0, 1, 103, 0, 0, 0, 7, 0, 1]) = .short := rfl
example : onWire .Heartbeat 0 ([0, 12, 0, 0, 0, 0, 0, 3, 0, 1, 99] ++ [0xFF, 0xFE, 103]) = .bad := rfl
example : flexible .Heartbeat 0 = false := by decide

end Kafka.Props
