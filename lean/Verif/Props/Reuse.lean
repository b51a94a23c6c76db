import Verif.Props.Messages
import Verif.Gen.Reuses
/-!
C78: decoding into a message that has been used before.

`Msg.reuses` lists the message types with a description of what their `Decode` leaves of the message it is called on:
`over v y t0` is what `t0` becomes where a new message becomes `y`, and `Nulls v y` says that an array of structures is nil.
-/
namespace Kafka.Props

open Kafka

/-- The full claim, of one message type: what was in the message makes no difference to what is in it afterwards, as far as
the version goes; whatever the bytes. -/
def C78_statement (p : Entry) : Prop :=
  ∀ v t0 d y d', p.1.decode v p.1.zero d = .ok y d' → ∃ x, p.1.decode v t0 d = .ok x d' ∧
    bytesOf (p.1.encode v x) = bytesOf (p.1.encode v y) ∧ p.1.size v x = p.1.size v y

/-- Whether decoding succeeds, fails, or panics, with which error, and what is left of the input does not depend on what was
in the message before. -/
theorem C78_outcome (p : Entry) (hp : p ∈ Msg.all) (v : Int16) (t0 t1 : p.1.T) (d : Decoder) :
    (p.1.decode v t0 d).map (fun _ => ()) = (p.1.decode v t1 d).map (fun _ => ()) := by
  rw [← Msg.reuses_all] at hp
  obtain ⟨q, hq, rfl⟩ := List.mem_map.1 hp
  have h := (Msg.reuses_hold q hq).decode v
  dsimp only at t0 t1 ⊢
  rw [h t0, h t1]
  cases q.1.decode v q.1.zero d <;> rfl

/-- What becomes of a message, exactly. -/
theorem C78_value (q : Σ (M : MsgType) (_ : Layout M), Reuse M) (hq : q ∈ Msg.reuses) (v : Int16) (t0 : q.1.T) (d : Decoder) :
    q.1.decode v t0 d = (q.1.decode v q.1.zero d).map (q.2.2.over v · t0) :=
  (Msg.reuses_hold q hq).decode v t0 d

/-- These are the 218 message types. -/
theorem C78_all : Msg.reuses.map (fun q => (⟨q.1, q.2.1⟩ : Entry)) = Msg.all := Msg.reuses_all

theorem lawful_of_reuse {q : Σ (M : MsgType) (_ : Layout M), Reuse M} (hq : q ∈ Msg.reuses) : Lawful q.1 q.2.1 :=
  Msg.all_lawful ⟨q.1, q.2.1⟩ (Msg.reuses_all ▸ List.mem_map_of_mem (f := fun q => (⟨q.1, q.2.1⟩ : Entry)) hq)

/-- It holds of exactly the inputs in which no array of structures is null. -/
theorem C78_exact (q : Σ (M : MsgType) (_ : Layout M), Reuse M) (hq : q ∈ Msg.reuses) (v : Int16) (d : Decoder)
    (y : q.1.T) (d' : Decoder) (hy : q.1.decode v q.1.zero d = .ok y d') :
    (∀ t0, ∃ x, q.1.decode v t0 d = .ok x d' ∧
      bytesOf (q.1.encode v x) = bytesOf (q.1.encode v y) ∧ q.1.size v x = q.1.size v y) ↔ ¬q.2.2.Nulls v y := by
  have h := Msg.reuses_hold q hq
  have hl := lawful_of_reuse hq
  have hd : ∀ t0, q.1.decode v t0 d = .ok (q.2.2.over v y t0) d' := fun t0 => by rw [h.decode, hy]; rfl
  have hb : ∀ t, bytesOf (q.1.encode v t) = q.2.1.wire v t := fun t => (hl.emits v t).bytesOf
  constructor
  · intro hs hn
    obtain ⟨t0, ht⟩ := h.stale v y hn
    obtain ⟨x, h1, h2, _⟩ := hs t0
    rw [hd t0] at h1
    simp only [Res.ok.injEq, and_true] at h1
    rw [hb, hb, ← h1] at h2
    exact ht h2
  · intro hn t0
    have e : q.2.1.wire v (q.2.2.over v y t0) = q.2.1.wire v y := h.same v y t0 hn
    refine ⟨_, hd t0, by rw [hb, hb, e], ?_⟩
    rw [(hl.sized v _), (hl.sized v y), e]

/-- So it holds where no array of structures is null. -/
theorem C78_partial (q : Σ (M : MsgType) (_ : Layout M), Reuse M) (hq : q ∈ Msg.reuses) (v : Int16) (t0 : q.1.T)
    (d : Decoder) (y : q.1.T) (d' : Decoder) (hy : q.1.decode v q.1.zero d = .ok y d') (hn : ¬q.2.2.Nulls v y) :
    ∃ x, q.1.decode v t0 d = .ok x d' ∧
      bytesOf (q.1.encode v x) = bytesOf (q.1.encode v y) ∧ q.1.size v x = q.1.size v y :=
  (C78_exact q hq v d y d' hy).2 hn t0

/-- In particular of what `Encode` writes, where nil is written as an empty array. -/
theorem C78_own (p : Entry) (hp : p ∈ Msg.all) (v : Int16) (t t0 : p.1.T) (hf : p.2.Fits v t) (d : Decoder)
    (hd : d.Valid) (tail : List Byte) (hr : d.rest = bytesOf (p.1.encode v t) ++ tail) :
    ∃ x d', p.1.decode v t0 d = .ok x d' ∧ bytesOf (p.1.encode v x) = bytesOf (p.1.encode v t) :=
  ⟨_, _, C14_roundtrip p hp v t t0 hf d hd tail hr, C14_stable p hp v t t0⟩

/-- Metadata with null for the brokers. -/
def nullBrokers : Decoder := newDecoder [0xFF, 0xFF, 0xFF, 0xFF, 0, 0, 0, 0] 8

/-- It is false: where the bytes say that there are no brokers, those of the message before stay. -/
theorem C78_fails : (⟨Msg.MetadataResponse.type, Msg.MetadataResponse.layout⟩ : Entry) ∈ Msg.all ∧
    ¬C78_statement ⟨Msg.MetadataResponse.type, Msg.MetadataResponse.layout⟩ := by
  refine ⟨?_, fun h => ?_⟩
  · have : (⟨Msg.MetadataResponse.type, Msg.MetadataResponse.layout⟩ : Entry) ∈ Msg.typesMetadata := by
      simp [Msg.typesMetadata]
    exact List.mem_flatten.2 ⟨_, by simp [Msg.byApi], this⟩
  · obtain ⟨x, h1, h2, _⟩ := h 0 ({ Brokers := some [{ NodeId := 1, Host := goString "old", Port := 9092 }] } :
        Msg.MetadataResponse) nullBrokers ({ Topics := some [] } : Msg.MetadataResponse)
        { raw := [0xFF, 0xFF, 0xFF, 0xFF, 0, 0, 0, 0], length := 8, offset := 8 } rfl
    have h3 : Msg.MetadataResponse.decode 0
        { Brokers := some [{ NodeId := 1, Host := goString "old", Port := 9092 }] } nullBrokers = .ok
          { Brokers := some [{ NodeId := 1, Host := goString "old", Port := 9092 }], Topics := some [] }
          { raw := [0xFF, 0xFF, 0xFF, 0xFF, 0, 0, 0, 0], length := 8, offset := 8 } := by rfl
    have h4 : x = _ := (Res.ok.inj (h1.symm.trans h3)).1
    subst h4
    have h5 := congrArg List.length h2
    revert h5
    decide +kernel

/-- The others hold the full claim, for instance the replies to heartbeats. -/
example : ∀ v y, ¬Msg.HeartbeatResponse.Nulls v y := fun _ _ h => h

/-- And metadata with brokers and topics does. -/
example : ¬Msg.MetadataResponse.Nulls 0 { Brokers := some [{ NodeId := 1 }], Topics := some [] } := by
  simp [Msg.MetadataResponse.Nulls]

end Kafka.Props
