import Verif.Gen.All
import Verif.Gen.Gates
import Verif.Broker.Config
/-!
Properties C13 to C17: `Size`, `Encode` and `Decode` of the 218 message types.

`Msg.all` lists every message type `p.1` (its `Size`, `Encode`, `Decode` and zero value) with
its specification `p.2`: the bytes `wire` a value stands for, the condition `Fits` that its
string and array lengths are representable in their prefixes, the value `seen` by a reader
who starts from a given receiver, and `Canon`, that the value has nothing the version cannot
carry.  `bytesOf f` is what `f` writes into an empty buffer.
-/
namespace Kafka.Props

open Kafka

/-- A message type with its specification. -/
abbrev Entry := Σ M : MsgType, Layout M

/-- The list is complete: one entry for each of the 218 structures of the file. -/
theorem all_types : Msg.all.length = 218 := Msg.all_length

/-! ### C13 -/

/-- `Size` is the number of bytes `Encode` writes (as an int32: `Size` returns one). -/
theorem C13_size (p : Entry) (hp : p ∈ Msg.all) (v : Int16) (t : p.1.T) :
    p.1.size v t = Int32.ofNat (bytesOf (p.1.encode v t)).length := by
  have h := Msg.all_lawful p hp
  rw [(h.emits v t).bytesOf]
  exact h.sized v t

/-- Below 2^31 bytes, `Size` is that number. -/
theorem C13_size_exact (p : Entry) (hp : p ∈ Msg.all) (v : Int16) (t : p.1.T)
    (h : (bytesOf (p.1.encode v t)).length < 2 ^ 31) :
    (p.1.size v t).toInt = (bytesOf (p.1.encode v t)).length := by
  rw [C13_size p hp]; exact ofNat_toInt32 h

/-- A value with nested arrays. -/
def sampleProduce : Msg.ProduceRequest :=
  { TransactionalId := goString "tx", Acks := -1, TimeoutMs := 1500,
    Topics := some [{ Name := goString "t", Partitions := some [{ PartitionIndex := 3, Records := some [1, 2, 3] }] }] }

theorem produce_mem : (⟨Msg.ProduceRequest.type, Msg.ProduceRequest.layout⟩ : Entry) ∈ Msg.all :=
  List.mem_flatten.2 ⟨Msg.typesProduce, by simp [Msg.byApi], by simp [Msg.typesProduce]⟩

example : bytesOf (Msg.ProduceRequest.encode 3 sampleProduce) =
    [0, 2, 0x74, 0x78, 0xFF, 0xFF, 0, 0, 5, 0xDC, 0, 0, 0, 1, 0, 1, 0x74, 0, 0, 0, 1, 0, 0, 0, 3,
      0, 0, 0, 3, 1, 2, 3] ∧
    Msg.ProduceRequest.size 3 sampleProduce = 32 := by
  constructor <;> decide

/-! ### C14 -/

/-- Decoding the encoding of a message at a version, from wherever it sits in a buffer and
into whatever receiver, succeeds and gives what the specification says the reader sees. -/
theorem C14_roundtrip (p : Entry) (hp : p ∈ Msg.all) (v : Int16) (t t0 : p.1.T)
    (hf : p.2.Fits v t) (d : Decoder) (hd : d.Valid) (tail : List Byte)
    (hr : d.rest = bytesOf (p.1.encode v t) ++ tail) :
    p.1.decode v t0 d = .ok (p.2.seen v t t0) (d.skip (bytesOf (p.1.encode v t)).length) := by
  have h := Msg.all_lawful p hp
  have he := (h.emits v t).bytesOf
  rw [he] at hr ⊢
  exact (h.reads v t hf t0).1 d hd tail hr

/-- A message with nothing the version cannot carry comes back exactly. -/
theorem C14_roundtrip_exact (p : Entry) (hp : p ∈ Msg.all) (v : Int16) (t : p.1.T)
    (hf : p.2.Fits v t) (hc : p.2.Canon v t) (d : Decoder) (hd : d.Valid) (tail : List Byte)
    (hr : d.rest = bytesOf (p.1.encode v t) ++ tail) :
    p.1.decode v p.1.zero d = .ok t (d.skip (bytesOf (p.1.encode v t)).length) := by
  rw [C14_roundtrip p hp v t p.1.zero hf d hd tail hr, (Msg.all_lawful p hp).canon v t hc]

/-- What is read back is encoded in the same bytes again. -/
theorem C14_stable (p : Entry) (hp : p ∈ Msg.all) (v : Int16) (t t0 : p.1.T) :
    bytesOf (p.1.encode v (p.2.seen v t t0)) = bytesOf (p.1.encode v t) := by
  have h := Msg.all_lawful p hp
  rw [(h.emits v _).bytesOf, (h.emits v _).bytesOf, h.again]

/-- The sample value meets the hypotheses. -/
theorem sampleProduce_ok : Msg.ProduceRequest.Fits 3 sampleProduce ∧
    Msg.ProduceRequest.Canon 3 sampleProduce := by
  refine ⟨⟨fun _ => by unfold FitsString; decide, by unfold FitsSlice; decide, fun x hx => ?_⟩, ⟨fun h => absurd h (by decide), by decide, fun x hx => ?_⟩⟩
  · simp only [sampleProduce, Slice.elems, Option.getD_some, List.mem_singleton] at hx
    subst hx
    refine ⟨by unfold FitsString; decide, by unfold FitsSlice; decide, fun x hx => ?_⟩
    simp only [Slice.elems, Option.getD_some, List.mem_singleton] at hx
    subst hx
    exact ⟨by unfold FitsSlice; decide⟩
  · simp only [sampleProduce, Slice.elems, Option.getD_some, List.mem_singleton] at hx
    subst hx
    refine ⟨by decide, fun x hx => ?_⟩
    simp only [Slice.elems, Option.getD_some, List.mem_singleton] at hx
    subst hx
    exact ⟨by unfold Slice.NotNil; decide⟩

example (d : Decoder) (hd : d.Valid) (hr : d.rest = bytesOf (Msg.ProduceRequest.encode 3 sampleProduce) ++ [9, 9]) :
    Msg.ProduceRequest.decode 3 {} d = .ok sampleProduce (d.skip 32) :=
  C14_roundtrip_exact ⟨Msg.ProduceRequest.type, Msg.ProduceRequest.layout⟩ produce_mem 3 sampleProduce
    sampleProduce_ok.1 sampleProduce_ok.2 d hd [9, 9] hr

/-! ### C15 -/

/-- Two messages one of whose encodings is a prefix of the other's have the same encoding
and are indistinguishable to a reader: no encoding is a strict prefix of another one, and
nothing is encoded ambiguously. -/
theorem C15_self_delimiting (p : Entry) (hp : p ∈ Msg.all) (v : Int16) (t t' t0 : p.1.T)
    (hf : p.2.Fits v t) (hf' : p.2.Fits v t')
    (hsmall : (bytesOf (p.1.encode v t')).length < 2 ^ 62)
    (hpre : bytesOf (p.1.encode v t) <+: bytesOf (p.1.encode v t')) :
    bytesOf (p.1.encode v t) = bytesOf (p.1.encode v t') ∧ p.2.seen v t t0 = p.2.seen v t' t0 := by
  obtain ⟨tail, ht⟩ := hpre
  have h1 := C14_roundtrip p hp v t t0 hf _ (newDecoder_valid hsmall) tail
    (by rw [newDecoder_rest, ht])
  have h2 := C14_roundtrip p hp v t' t0 hf' _ (newDecoder_valid hsmall) []
    (by rw [newDecoder_rest, List.append_nil])
  rw [h1] at h2
  simp only [Res.ok.injEq, Decoder.skip, Decoder.mk.injEq, true_and] at h2
  refine ⟨?_, h2.1⟩
  have hl : (bytesOf (p.1.encode v t)).length = (bytesOf (p.1.encode v t')).length := by omega
  have : tail = [] := by
    have := congrArg List.length ht
    rw [List.length_append] at this
    exact List.eq_nil_of_length_eq_zero (by omega)
  rw [← ht, this, List.append_nil]

/-- Canonical messages with the same encoding are equal. -/
theorem C15_injective (p : Entry) (hp : p ∈ Msg.all) (v : Int16) (t t' : p.1.T)
    (hf : p.2.Fits v t) (hf' : p.2.Fits v t') (hc : p.2.Canon v t) (hc' : p.2.Canon v t')
    (hsmall : (bytesOf (p.1.encode v t')).length < 2 ^ 62)
    (he : bytesOf (p.1.encode v t) = bytesOf (p.1.encode v t')) : t = t' := by
  have h := (C15_self_delimiting p hp v t t' p.1.zero hf hf' hsmall (by rw [he]; exact List.prefix_rfl)).2
  rw [(Msg.all_lawful p hp).canon v t hc, (Msg.all_lawful p hp).canon v t' hc'] at h
  exact h

example : (bytesOf (Msg.ProduceRequest.encode 3 sampleProduce)).length < 2 ^ 62 := by decide

/-! ### C16 -/

/-- A strict prefix of an encoded message, cut anywhere, is reported as insufficient
data. -/
theorem C16_truncated (p : Entry) (hp : p ∈ Msg.all) (v : Int16) (t t0 : p.1.T) (hf : p.2.Fits v t)
    (d : Decoder) (hd : d.Valid) (hpre : d.rest <+: bytesOf (p.1.encode v t))
    (hne : d.rest ≠ bytesOf (p.1.encode v t)) :
    ∃ e d', p.1.decode v t0 d = .err e d' ∧ isInsufficientDataError e = true := by
  have h := Msg.all_lawful p hp
  rw [(h.emits v t).bytesOf] at hpre hne
  obtain ⟨d', h'⟩ := (h.reads v t hf t0).2 d hd hpre hne
  exact ⟨_, d', h', rfl⟩

/-- Cut points of the sample message: its first 20 bytes. -/
example : ∃ e d', Msg.ProduceRequest.decode 3 {}
      (newDecoder ((bytesOf (Msg.ProduceRequest.encode 3 sampleProduce)).take 20) 20) = .err e d' ∧
    isInsufficientDataError e = true := by
  refine C16_truncated ⟨Msg.ProduceRequest.type, Msg.ProduceRequest.layout⟩ produce_mem 3 sampleProduce {}
    sampleProduce_ok.1 _ (newDecoder_valid (bs := (bytesOf (Msg.ProduceRequest.encode 3 sampleProduce)).take 20) ?_) ?_ ?_
  · decide
  · rw [show (20 : Int) = (((bytesOf (Msg.ProduceRequest.encode 3 sampleProduce)).take 20).length : Int) from by decide,
      newDecoder_rest]
    exact List.take_prefix _ _
  · decide

/-! ### C17 -/

/-- For each of the 150 fields that exist only in some versions, in every version without
the field: encoding and size do not depend on its value, and decoding any input leaves it
as it was. -/
theorem C17_absent (g : Gate) (hg : g ∈ Msg.gates) (v : Int16) (h : ¬ g.present v) :
    (∀ t x, bytesOf (g.M.encode v (g.set t x)) = bytesOf (g.M.encode v t)) ∧
    (∀ t x, g.M.size v (g.set t x) = g.M.size v t) ∧
    (∀ t0 d t d', g.M.decode v t0 d = .ok t d' → g.get t = g.get t0) := by
  have hh := Msg.gates_hold g hg
  exact ⟨fun t x => by rw [hh.encode v h], hh.size v h, hh.decode v h⟩

/-- `set` and `get` of a field belong together, so the statement above is about every
value of the field. -/
theorem C17_field (g : Gate) (hg : g ∈ Msg.gates) (t : g.M.T) (x : g.α) : g.get (g.set t x) = x :=
  (Msg.gates_hold g hg).get_set t x

/-- In every version with the field, what is read back for it does not depend on the
receiver. -/
theorem C17_present (g : Gate) (hg : g ∈ Msg.gates) (v : Int16) (h : g.present v) (t t0 t1 : g.M.T) :
    g.get (g.L.seen v t t0) = g.get (g.L.seen v t t1) :=
  (Msg.gates_hold g hg).carried v h t t0 t1

/-- Messages that a reader at this version cannot tell apart have the same encoding and
size. -/
theorem C17_same_bytes (p : Entry) (hp : p ∈ Msg.all) (v : Int16) (t t' t0 : p.1.T)
    (h : p.2.seen v t t0 = p.2.seen v t' t0) :
    bytesOf (p.1.encode v t) = bytesOf (p.1.encode v t') ∧ p.1.size v t = p.1.size v t' := by
  have h1 : bytesOf (p.1.encode v t) = bytesOf (p.1.encode v t') := by
    rw [← C14_stable p hp v t t0, h, C14_stable p hp v t' t0]
  exact ⟨h1, by rw [C13_size p hp, C13_size p hp, h1]⟩

/-- The transactional id of a produce request is such a field: absent at 2, present at 3. -/
example : Msg.ProduceRequest.gateTransactionalId ∈ Msg.gates ∧
    ¬ Msg.ProduceRequest.gateTransactionalId.present 2 ∧ Msg.ProduceRequest.gateTransactionalId.present 3 :=
  ⟨List.mem_flatten.2 ⟨Msg.gatesProduce, by simp [Msg.gatesByApi], by simp [Msg.gatesProduce]⟩,
    (by decide : ¬ (2 : Int16) ≥ 3), (by decide : (3 : Int16) ≥ 3)⟩

end Kafka.Props
