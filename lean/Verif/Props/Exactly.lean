import Verif.Props.Behind
import Verif.Protocol.Stuck
/-!
C89 and C91: of which methods the full claims hold.
-/
namespace Kafka.Props

open Protocol (Val)

/-- A value of a field that is zero, nil or empty; fields that are structures are left out. -/
def blank : Val → Bool
  | .bool x => x == false
  | .int8 x => x == 0
  | .int16 x => x == 0
  | .int32 x => x == 0
  | .int64 x => x == 0
  | .str x => (x.getD []).isEmpty
  | .bytes x => (x.getD []).isEmpty
  | .arr x => (x.getD []).isEmpty
  | .struct _ => true

/-- All fields are. -/
def blanks : Val → Bool
  | .struct fs => fs.all fun f => blank f.2
  | x => blank x

/-- Replies that are cut off. -/
def cutOffs : List (List Byte) := [[0, 1], [0, 1, 0x61], [0, 0, 0, 1], [0, 0, 0, 1, 0]]

/-- One of them is returned, in part, along with an error. -/
def returnsPart (a : Api) (v : Int16) : Bool :=
  cutOffs.any fun bs =>
    match a.keeps.decode v a.resp.zero (newDecoder bs bs.length) with
    | .err _ r _ => !blanks (a.respVal r)
    | _ => false

/-- The full claim holds exactly of the methods whose responses are one number. -/
theorem C89_exact (b : Broker) (a : Api) (hv : 0 ≤ version b a) (hmax : (version b a).toInt ≤ a.protocolMax) :
    C89_statement b a ↔ a = .UpdateMetadata ∨ (a = .Heartbeat ∨ a = .LeaveGroup) ∧ version b a = 0 := by
  constructor
  · intro h
    obtain ⟨n, hn, e⟩ := upTo hv hmax
    have key : ∀ a : Api, ∀ n ≤ a.protocolMax, returnsPart a (Int16.ofNat n) = true ∨
        (a = .UpdateMetadata ∨ (a = .Heartbeat ∨ a = .LeaveGroup) ∧ Int16.ofNat n = 0) := by
      intro a; cases a <;> decide +kernel
    rw [e]
    refine (key a n hn).resolve_left fun hp => ?_
    rw [← e] at hp
    obtain ⟨bs, _, hbs⟩ := List.any_eq_true.1 hp
    split at hbs
    · next e' r d' hx =>
      have hr : b.returned a (some (newDecoder bs bs.length)) = some (r, some (.decode e')) := by
        simp only [Broker.returned]
        rw [show b.apiVersion.get a = version b a from rfl, hx]
      have hz := h _ _ _ hr
      subst hz
      have : blanks (a.respVal a.resp.zero) = true := by cases a <;> rfl
      rw [this] at hbs
      cases hbs
    · cases hbs
  · rintro (rfl | ⟨rfl | rfl, h0⟩)
    · intro reply r e hr
      cases reply with
      | none => cases hr; rfl
      | some d =>
        revert hr
        simp only [Broker.returned, Api.keeps, Msg.UpdateMetadataResponse.keeps, Msg.UpdateMetadataResponse.decodeK,
          KDec.field]
        cases Dec.int16 d with
        | ok x d' => intro hr; cases hr
        | panic => intro hr; cases hr
        | err e' d' => intro hr; cases hr; rfl
    · exact C89_heartbeat b (by rw [h0]; decide)
    · intro reply r e hr
      cases reply with
      | none => cases hr; rfl
      | some d =>
        revert hr
        have h0' : b.apiVersion.get .LeaveGroup = 0 := h0
        simp only [Broker.returned, Api.keeps, Msg.LeaveGroupResponse.keeps, Msg.LeaveGroupResponse.decodeK, KDec.andThen,
          KDec.onlyIf, KDec.field, h0', if_neg (show ¬(0 : Int16) ≥ 1 by decide), if_neg (show ¬(0 : Int16) ≥ 3 by decide)]
        cases Dec.int16 d with
        | ok x d' => intro hr; cases hr
        | panic => intro hr; cases hr
        | err e' d' => intro hr; cases hr; rfl

/-- Both cases occur. -/
example : version olderBroker .Heartbeat = 0 ∧ (version olderBroker .Fetch).toInt ≤ Api.Fetch.protocolMax ∧
    returnsPart .Fetch 0 = true := ⟨rfl, by decide, by decide +kernel⟩

/-- The claim of C91 holds exactly of the methods that no reply can make panic. -/
theorem C91_exact (b : Broker) (a : Api) (hv : 0 ≤ version b a) (hct : a = .CreateTopics → version b a < 5) :
    C91_statement b a ↔ ∀ req d, d.Valid → (b.call a req).decode d ≠ .panic := by
  refine ⟨fun h req => ?_, C91_immune b a⟩
  rw [C60_immune b a req hv hct]
  refine (Bool.eq_false_or_eq_true _).resolve_right fun hs => ?_
  obtain ⟨bs, hw, h1, h2⟩ := (Protocol.Ty.struct (Protocol.response a)).stuck_parse (version b a)
    (by rw [Protocol.Ty.safe]; exact hs)
  have hl : bs.length < 200 := by
    rw [Protocol.Ty.weight] at hw
    have : (Protocol.response a).weight < 200 := by cases a <;> decide +kernel
    omega
  have hv1 := newDecoder_valid (bs := bs) (by omega)
  obtain ⟨e, d', h3⟩ := (C60_fails b a req _ hv1 hv hct).2 (by rw [newDecoder_rest]; exact h1)
  obtain ⟨r, h4⟩ := ((C89_same b a req _).2.1 e).1 ⟨d', h3⟩
  obtain ⟨tail, y, hl2, h5⟩ := h bs (by omega) r _ h4
  obtain ⟨x, n, h6⟩ := (C60_returns b a req _ (newDecoder_valid hl2) hv hct).1 ⟨y, ((C89_same b a req _).1 y).2 h5⟩
  rw [newDecoder_rest] at h6
  have h7 := h2 tail
  rw [show (Protocol.Ty.struct (Protocol.response a)).parse (version b a) (bs ++ tail) = .ok x n from h6] at h7
  rcases h7 with h7 | h7 <;> cases h7

/-- They are these. -/
theorem C91_list (b : Broker) (a : Api) (hv : 0 ≤ version b a) (hmax : (version b a).toInt ≤ a.protocolMax)
    (hct : a = .CreateTopics → version b a < 5) :
    C91_statement b a ↔ a ∈ [Api.UpdateMetadata, .Heartbeat, .ApiVersions, .InitProducerId, .AddOffsetsToTxn, .EndTxn,
      .RenewDelegationToken, .ExpireDelegationToken] ∨ a = .LeaveGroup ∧ version b a < 3 := by
  rw [C91_exact b a hv hct, ← C60_immune_list b a a.req.zero hv hmax hct]
  refine ⟨fun h => h _, fun h req => ?_⟩
  rw [C60_immune b a _ hv hct] at h
  rw [C60_immune b a req hv hct]
  exact h

end Kafka.Props
