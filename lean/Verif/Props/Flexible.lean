import Verif.Props.Protocol
/-!
C47 at flexible versions: not only the request whose fields are all zero is written in another way than the protocol says,
all are.
-/
namespace Kafka.Props

open Protocol (flexible requestFrame Val Ty Fields)

/-- Fewer than 2^23 elements, if it is an array or a byte string. -/
def short : Val → Bool
  | .arr (some l) => l.length < 2 ^ 23
  | .bytes (some l) => l.length < 2 ^ 23
  | _ => true

/-- A structure with no arrays or byte strings of 2^23 elements or more among its fields. -/
def Small : Val → Bool
  | .struct fs => fs.all fun f => short f.2
  | _ => true

theorem small_get {x : Val} (h : Small x = true) (name : String) : short (x.get name) = true := by
  cases x with
  | struct fs =>
    simp only [Val.get]
    cases hl : fs.lookup name with
    | none => rfl
    | some y =>
      obtain ⟨l1, l2, e, _⟩ := List.lookup_eq_some_iff.1 hl
      simp only [Small, List.all_eq_true] at h
      exact h (name, y) (by rw [e]; simp)
  | _ => rfl

/-- No field is itself a structure. -/
def Flat : Fields → Bool
  | .done => true
  | .cons _ _ _ _ (.struct _) _ => false
  | .cons _ _ _ _ _ rest => Flat rest

theorem shift_fixed {i r r' : List Byte} (h : i ++ r = 0 :: (i ++ r')) : r = 0 :: r' := by
  induction i with
  | nil => exact h
  | cons a i ih =>
    simp only [List.cons_append, List.cons.injEq] at h
    obtain ⟨h1, h2⟩ := h
    subst h1
    exact ih h2

theorem uvarint_head (n : Nat) : ∃ us, Protocol.uvarint n = BitVec.ofNat 8 (if n < 128 then n else n % 128 + 128) :: us := by
  rw [Protocol.uvarint]
  split
  · exact ⟨[], rfl⟩
  · exact ⟨_, rfl⟩

theorem be2 (i : Int) : Wire.bigEndian 2 i = [BitVec.ofInt 8 (i / 256), BitVec.ofInt 8 i] := by
  simp [Wire.bigEndian, List.range, List.range.loop]

theorem be4 (i : Int) : ∃ c d, Wire.bigEndian 4 i = [BitVec.ofInt 8 (i / 256 ^ 3), BitVec.ofInt 8 (i / 256 ^ 2), c, d] := by
  refine ⟨BitVec.ofInt 8 (i / 256 ^ 1), BitVec.ofInt 8 (i / 256 ^ 0), ?_⟩
  simp only [Wire.bigEndian, List.range, List.range.loop, List.reverse_cons, List.reverse_nil, List.nil_append,
    List.cons_append, List.map_cons, List.map_nil]

theorem not_string {n : Nat} (hn : n < 2 ^ 15) {r r' : List Byte} :
    Wire.bigEndian 2 n ++ r ≠ 0 :: (Protocol.uvarint (n + 1) ++ r') := by
  obtain ⟨us, hu⟩ := uvarint_head (n + 1)
  rw [be2, hu]
  intro h
  simp only [List.cons_append, List.nil_append, List.cons.injEq] at h
  obtain ⟨h1, h2, _⟩ := h
  have h1 := congrArg BitVec.toNat h1
  have h2 := congrArg BitVec.toNat h2
  simp only [BitVec.toNat_ofInt, BitVec.toNat_ofNat] at h1 h2
  split at h2 <;> simp at h1 h2 <;> omega

theorem not_long {n : Nat} (hn : n < 2 ^ 23) {r r' : List Byte} :
    Wire.bigEndian 4 n ++ r ≠ 0 :: (Protocol.uvarint (n + 1) ++ r') := by
  obtain ⟨us, hu⟩ := uvarint_head (n + 1)
  obtain ⟨c, d, hb⟩ := be4 n
  rw [hb, hu]
  intro h
  simp only [List.cons_append, List.nil_append, List.cons.injEq] at h
  obtain ⟨h1, h2, _⟩ := h
  have h1 := congrArg BitVec.toNat h1
  have h2 := congrArg BitVec.toNat h2
  simp only [BitVec.toNat_ofInt, BitVec.toNat_ofNat] at h1 h2
  split at h2 <;> simp at h1 h2 <;> omega

/-- The encoding without compact lengths and tags is not the one with them, behind the tags of the header. -/
theorem shifted {v : Int16} {x : Val} (hs : Small x = true) : ∀ fs : Fields, Flat fs = true → fs.Valid true v x →
    fs.wire false v x ≠ 0 :: (fs.wire true v x ++ [0])
  | .done, _, _ => by simp [Fields.wire]
  | .cons name since upto nf t rest, hf, hv => by
    have ih := shifted (v := v) hs rest
    simp only [Fields.Valid] at hv
    obtain ⟨hv1, hv2⟩ := hv
    have ihr : rest.wire false v x ≠ 0 :: (rest.wire true v x ++ [0]) := ih (by cases t <;> simp_all [Flat]) hv2
    simp only [Fields.wire]
    split
    · rename_i hp
      have hv1 := hv1 hp
      have hsn := small_get hs name
      generalize x.get name = y at hv1 hsn
      intro h
      rw [List.append_assoc] at h
      cases t with
      | bool => cases y <;> simp only [Ty.Valid] at hv1; exact ihr (shift_fixed h)
      | int8 => cases y <;> simp only [Ty.Valid] at hv1; exact ihr (shift_fixed h)
      | int16 => cases y <;> simp only [Ty.Valid] at hv1; exact ihr (shift_fixed h)
      | int32 => cases y <;> simp only [Ty.Valid] at hv1; exact ihr (shift_fixed h)
      | int64 => cases y <;> simp only [Ty.Valid] at hv1; exact ihr (shift_fixed h)
      | string =>
        cases y with
        | str s =>
          cases s with
          | none => exact absurd (List.cons.inj h).1 (by decide)
          | some s =>
            simp only [Ty.Valid] at hv1
            simp only [Ty.wire, Bool.false_eq_true, if_false, if_true, List.append_assoc] at h
            exact not_string hv1 h
        | _ => simp only [Ty.Valid] at hv1
      | bytes =>
        cases y with
        | bytes s =>
          cases s with
          | none => exact absurd (List.cons.inj h).1 (by decide)
          | some s =>
            simp only [Ty.wire, Bool.false_eq_true, if_false, if_true, List.append_assoc] at h
            exact not_long (by simpa [short] using hsn) h
        | _ => simp only [Ty.Valid] at hv1
      | array t =>
        cases y with
        | arr s =>
          cases s with
          | none => exact absurd (List.cons.inj h).1 (by decide)
          | some s =>
            simp only [Ty.wire, Bool.false_eq_true, if_false, if_true, List.append_assoc] at h
            exact not_long (by simpa [short] using hsn) h
        | _ => simp only [Ty.Valid] at hv1
      | struct fs => simp [Flat] at hf
    · exact ihr

/-- At every flexible version no request at all (with fewer than 2^23 elements in its arrays and byte strings) is a valid message
and written as the protocol says. -/
theorem C47_flexible_never (b : Broker) (a : Api) (hflex : flexible a (version b a) = true)
    (req : a.req.T) (hs : Small (a.reqVal req) = true) (id : Int32) :
    ¬ ((Protocol.request a).Valid true (version b a) (a.reqVal req) ∧
      written b a req id = requestFrame a (version b a) id b.config.clientID (a.reqVal req)) := by
  rintro ⟨hv, h⟩
  have h2 := flexible_body hflex h
  have h0 : 0 ≤ version b a := by
    unfold flexible at hflex
    cases hf : Protocol.flexibleFrom a with
    | none => rw [hf] at hflex; cases hflex
    | some f =>
      rw [hf] at hflex
      simp at hflex
      rw [Int16.le_iff_toInt_le]
      simp
      omega
  have hc : a = .OffsetCommit → version b a ≠ 1 := by
    intro ha h1
    rw [h1, ha] at hflex
    revert hflex
    decide
  rw [body_eq, ← a.req_conforms _ h0 hc req] at h2
  refine shifted hs (Protocol.request a) ?_ hv ?_
  · cases a <;> rfl
  · exact h2

/-- So a request is written as the protocol says exactly if the version is not flexible and it is not ControlledShutdown at
version 0 (OffsetCommit at version 1 apart, see `C47_commit_fails`; without nil slices where the protocol has no null, see
`C47_nil_fails`). -/
theorem C47_exact (b : Broker) (a : Api) (req : a.req.T) (id : Int32)
    (hv : 0 ≤ version b a) (hfit : a.reqLayout.Fits (version b a) req) (hfull : a.reqFull (version b a) req)
    (hcommit : a = .OffsetCommit → version b a ≠ 1) (hs : Small (a.reqVal req) = true) :
    written b a req id = requestFrame a (version b a) id b.config.clientID (a.reqVal req) ↔
      flexible a (version b a) = false ∧ ¬ (a = .ControlledShutdown ∧ version b a = 0) := by
  constructor
  · intro h
    refine ⟨?_, ?_⟩
    · cases hflex : flexible a (version b a) with
      | false => rfl
      | true => exact absurd ⟨a.req_valid _ hv hcommit req hfit hfull, h⟩ (C47_flexible_never b a hflex req hs id)
    · rintro ⟨rfl, h0⟩
      exact C47_shutdown_fails b h0 req id (by rw [h0] at h; exact h)
  · rintro ⟨hflex, hshut⟩
    exact (C47_partial b a req id hv hfit hflex hcommit hshut hfull).2

/-- A request at a flexible version that meets the hypotheses: its fields are written as 17 bytes, where the protocol has 15. -/
example : ∃ req : Msg.HeartbeatRequest, Small ((Api.Heartbeat).reqVal req) = true ∧
    (Protocol.request .Heartbeat).Valid true 4 ((Api.Heartbeat).reqVal req) ∧ flexible .Heartbeat 4 = true ∧
    (bytesOf (Msg.HeartbeatRequest.encode 4 req)).length = 17 ∧
    ((Ty.struct (Protocol.request .Heartbeat)).wire true 4 ((Api.Heartbeat).reqVal req)).length = 15 := by
  refine ⟨{ GroupId := goString "group", GenerationId := 3, MemberId := goString "m", GroupInstanceId := goString "i" },
    by decide, ?_, by decide, by decide, by decide +kernel⟩
  exact Api.req_valid .Heartbeat 4 (by decide) (by decide) _ ⟨by simp [FitsString, goString], by simp [FitsString, goString], fun _ => by simp [FitsString, goString]⟩ trivial

end Kafka.Props
