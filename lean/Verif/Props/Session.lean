import Verif.Props.Client
import Verif.Props.Protocol
import Verif.Protocol.Mono
/-!
Property C62: sessions with a broker of the protocol: connecting, agreeing on versions, requests and replies.

The broker is any network (`Env`) that keeps to the protocol: it says which versions it has, and answers requests
at those versions.  The specification is that of C47 and C48 (Verif/Protocol).
-/
namespace Kafka.Props

open Kafka.Client Kafka.Msg
open Protocol (flexible requestFrame replyPayload Val Fields Ty)

/-- The versions a broker has of the API with a key. -/
structure Range where
  key : Int16
  lo : Int16
  hi : Int16

/-- The broker has the API at this version. -/
def Offers (rs : List Range) (a : Api) (v : Int16) : Prop :=
  ∃ r ∈ rs, r.key.toInt = a.protocolKey ∧ r.lo ≤ v ∧ v ≤ r.hi

/-- The reply that says so. -/
def rangesReply (rs : List Range) : Val :=
  .struct [("ErrorCode", .int16 0), ("ApiKeys", .arr (some (rs.map fun r =>
    .struct [("ApiKey", .int16 r.key), ("MinVersion", .int16 r.lo), ("MaxVersion", .int16 r.hi)])))]

/-- The network is a broker of the protocol with these versions: it accepts connections, has version 0 of
ApiVersions and answers it with the versions it has, and answers every request of the protocol at a version it has
with a reply of the protocol.  (The id is in front of the body of a reply: see `doCall`.)  With `nulls := false` no
byte string in a reply is null. -/
structure Serves (env : Env) (rs : List Range) (nulls : Bool) : Prop where
  dials : ∀ tr addr, env.dial tr addr = none
  few : rs.length < 2 ^ 31
  versions : ∀ tr n id client x, (Protocol.request .ApiVersions).Valid true 0 x →
    ∃ stale, env.reply tr n (requestFrame .ApiVersions 0 id client x) =
        .frame ((replyPayload .ApiVersions 0 id (rangesReply rs)).drop 4) stale ∧
      ((replyPayload .ApiVersions 0 id (rangesReply rs)).drop 4 ++ stale).length < 2 ^ 31
  answers : ∀ tr n a v id client x, Offers rs a v → (Protocol.request a).Valid true v x →
    ∃ y stale, env.reply tr n (requestFrame a v id client x) = .frame ((replyPayload a v id y).drop 4) stale ∧
      (Protocol.response a).Valid nulls v y ∧ ((replyPayload a v id y).drop 4 ++ stale).length < 2 ^ 31

/-- The call is understood on both sides: it is sent as a request of the protocol at a version the broker has,
the broker answers, and the values in its reply are returned. -/
def Understood (env : Env) (rs : List Range) (h : Handle) (a : Api) (req : a.req.T) (tr : Trace) : Prop :=
  let v := version h.broker a
  let id := Int32.ofNat (tr.sent h.conn + 1)
  Offers rs a v ∧ (Protocol.request a).Valid true v (a.reqVal req) ∧
    ∃ y stale r, doCall h.conn (h.broker.call a req) env tr =
        (.ok r, tr ++ [.request h.conn (requestFrame a v id h.broker.config.clientID (a.reqVal req))
          (.frame ((replyPayload a v id y).drop 4) stale)]) ∧
      (Protocol.response a).Valid true v y ∧ (Protocol.response a).shows v y (a.respVal r) = true

/-- The ranges are in order, and those of the APIs of the library have versions in common with it. -/
def Compatible (rs : List Range) : Prop :=
  ∀ r ∈ rs, 0 ≤ r.lo ∧ r.lo ≤ r.hi ∧ ∀ a : Api, r.key.toInt = a.protocolKey → r.lo.toInt ≤ a.protocolMax

/-- The full claim: with every broker of the protocol that has versions in common with the library, `NewBroker`
succeeds, and every method of an API the broker has is understood, whenever it is called. -/
def C62_statement : Prop :=
  ∀ (env : Env) (rs : List Range) (addr : GoString) (opts : List Opt), Serves env rs true → Compatible rs →
    dialMode (buildConfig opts) ≠ .nilDialer →
    ∃ h tr', newBroker addr opts env [] = (.ok h, tr') ∧
      ∀ (a : Api) (req : a.req.T) (tr : Trace), (∃ v, Offers rs a v) → a.reqLayout.Fits (version h.broker a) req →
        Understood env rs h a req tr

/-! ### NewBroker -/

/-- A range as the library holds it. -/
def Range.entry (r : Range) : ApiVersionsResponseKey18 := { ApiKey := r.key, MinVersion := r.lo, MaxVersion := r.hi }

theorem reply_drop {a : Api} {v : Int16} (hflex : flexible a v = false) (id : Int32) (x : Val) :
    (replyPayload a v id x).drop 4 = (Protocol.response a).wire false v x := by
  rw [reply_eq hflex, List.drop_append_of_le_length (by rw [Wire.int32, Protocol.bigEndian_length]; omega),
    List.drop_eq_nil_of_le (by rw [Wire.int32, Protocol.bigEndian_length]; omega), List.nil_append]

theorem rangesReply_valid {rs : List Range} (h : rs.length < 2 ^ 31) :
    (Protocol.response .ApiVersions).Valid false 0 (rangesReply rs) := by
  show Fields.Valid false 0 Protocol.ApiVersionsResponse (rangesReply rs)
  simp [Protocol.ApiVersionsResponse, Protocol.ApiVersionsResponseKey, Protocol.field, Fields.Valid, Protocol.Ty.Valid,
    Protocol.Present, rangesReply, Val.get, List.lookup, h]

theorem rangesReply_of (rs : List Range) :
    ApiVersionsResponse.ApiKeys (Api.respOf .ApiVersions 0 (rangesReply rs)) = some (rs.map Range.entry) := by
  have h : ∀ l, Val.toSliceOr (fun y => ApiVersionsResponseKey18.of 0 y {}) none
      ((.struct [("ErrorCode", .int16 0), ("ApiKeys", .arr (some l))] : Val).get "ApiKeys") =
        some (l.map fun y => ApiVersionsResponseKey18.of 0 y {}) := fun l => rfl
  refine (h _).trans ?_
  rw [List.map_map]
  rfl

/-- `NewBroker` asks for the versions, as the protocol says, and uses the last entry for each API. -/
theorem newBroker_serves {env : Env} {rs : List Range} {nulls : Bool} (hs : Serves env rs nulls) (addr : GoString)
    (opts : List Opt) (hm : dialMode (buildConfig opts) ≠ .nilDialer) (tr : Trace) :
    ∃ tr', ∀ r, Negotiates (some (rs.map Range.entry)) r → newBroker addr opts env tr =
      (match r with
        | .ok av => .ok ⟨{ config := buildConfig opts, apiVersion := av }, tr.dialed⟩
        | .error e => .err (.wrap .create (.negotiate e)), tr') := by
  have hc : connect addr opts env tr = (.ok tr.dialed, tr ++ [.dial addr (dialMode (buildConfig opts)) none]) := by
    unfold connect
    split
    · rename_i hn; exact absurd hn hm
    · rw [hs.dials]
  obtain ⟨x, hx⟩ : ∃ x, x = tr ++ [Event.dial addr (dialMode (buildConfig opts)) none] := ⟨_, rfl⟩
  rw [← hx] at hc
  let b : Broker := { config := buildConfig opts }
  have hw := C47_partial b .ApiVersions ({} : ApiVersionsRequest) (Int32.ofNat (x.sent tr.dialed + 1))
    (show (0 : Int16) ≤ 0 by decide) ⟨by simp [FitsString], by simp [FitsString]⟩
    (show flexible .ApiVersions 0 = false by decide) (by simp) (by simp) trivial
  obtain ⟨stale, hr, hl⟩ := hs.versions x tr.dialed (Int32.ofNat (x.sent tr.dialed + 1)) b.config.clientID _ hw.1
  have hrd := Api.resp_decodes .ApiVersions 0 (by decide) (by simp) _ (rangesReply_valid hs.few)
  rw [← reply_drop (by decide) (Int32.ofNat (x.sent tr.dialed + 1))] at hrd
  have hdo := doCall_reads (conn := tr.dialed) (call := Broker.apiVersions b {}) (env := env) (tr := x)
    ((congrArg (env.reply x tr.dialed) hw.2).trans hr) hrd hl
  generalize x ++ [Event.request _ _ _] = tr2 at hdo
  refine ⟨tr2, fun r hn => ?_⟩
  rw [← rangesReply_of] at hn
  have hn' := ((negotiateFuel_exact _).1 _).2 hn
  unfold newBroker
  have hdo' : doCall tr.dialed (Broker.apiVersions { config := buildConfig opts } {}) env x = _ := hdo
  simp only [M.bind, M.wrap, hc, hdo', hn']
  cases r <;> rfl

theorem offered {rs : List Range} {av : ApiVersion} (hn : Negotiates (some (rs.map Range.entry)) (.ok av)) {a : Api}
    (ha : ∃ v, Offers rs a v) : ∃ r ∈ rs, r.key.toInt = a.protocolKey ∧ av.get a = r.hi := by
  have h := negotiates_get hn a
  unfold versionFrom at h
  split at h
  · rename_i hl
    obtain ⟨v, r, hr, hk, _⟩ := ha
    have := List.find?_eq_none.1 hl r.entry (by simp [Slice.elems]; exact ⟨r, hr, rfl⟩)
    refine absurd ?_ this
    rw [beq_iff_eq, ← Int16.toInt_inj]
    refine hk.trans ?_
    cases a <;> rfl
  · rename_i k hl
    have h1 := List.find?_some hl
    have h2 := List.mem_of_find?_eq_some hl
    simp only [Slice.elems, Option.getD_some, List.mem_reverse, List.mem_map] at h2
    obtain ⟨r, hr, rfl⟩ := h2
    refine ⟨r, hr, ?_, h⟩
    have : r.key = a.key := beq_iff_eq.1 h1
    rw [this]
    cases a <;> rfl

/-- The claim holds with brokers whose highest versions the library knows, for the APIs of which the broker's highest version
is not flexible, for requests as in C47 and replies without null byte strings.  What is missing: newer brokers (`C62_newer_fails`), flexible versions
(`C62_flexible_fails`), and what C47 and C48 except. -/
theorem C62_partial {env : Env} {rs : List Range} (hs : Serves env rs false) (hrs : Compatible rs) (addr : GoString)
    (opts : List Opt) (hm : dialMode (buildConfig opts) ≠ .nilDialer)
    (hmax : ∀ r ∈ rs, ∀ a : Api, r.key.toInt = a.protocolKey → r.hi.toInt ≤ a.protocolMax)
    (tr0 : Trace) :
    ∃ h tr', newBroker addr opts env tr0 = (.ok h, tr') ∧
      ∀ (a : Api) (req : a.req.T) (tr : Trace), (∃ v, Offers rs a v) →
        (∀ r ∈ rs, r.key.toInt = a.protocolKey → flexible a r.hi = false) → a.reqLayout.Fits (version h.broker a) req →
        (a = .OffsetCommit → version h.broker a ≠ 1) → ¬ (a = .ControlledShutdown ∧ version h.broker a = 0) →
        a.reqFull (version h.broker a) req → Understood env rs h a req tr := by
  obtain ⟨av, hn⟩ := C22_list_partial (some (rs.map Range.entry)) (by
    intro k hk a ha
    simp only [Slice.elems, Option.getD_some, List.mem_map] at hk
    obtain ⟨r, hr, rfl⟩ := hk
    obtain ⟨h0, h1, _⟩ := hrs r hr
    have h2 := hmax r hr a ha
    rw [Int16.le_iff_toInt_le] at h0 h1
    have e0 : (0 : Int16).toInt = 0 := rfl
    exact ⟨h2, r.hi, h1, Int.le_refl _, by omega, h2⟩)
  obtain ⟨tr', e⟩ := newBroker_serves hs addr opts hm tr0
  refine ⟨_, tr', e _ hn, ?_⟩
  intro a req tr hoff hnf hfit hcommit hshut hfull
  obtain ⟨r, hr, hk, hv⟩ := offered hn hoff
  obtain ⟨h0, h1, _⟩ := hrs r hr
  generalize hb : ({ broker := { config := buildConfig opts, apiVersion := av }, conn := tr0.dialed } : Handle) = h at *
  have hv' : version h.broker a = r.hi := by rw [← hb]; exact hv
  have hv0 : 0 ≤ version h.broker a := by rw [hv']; exact Int16.le_trans h0 h1
  have hflex : flexible a (version h.broker a) = false := by rw [hv']; exact hnf r hr hk
  have ho : Offers rs a (version h.broker a) := ⟨r, hr, hk, by rw [hv']; exact h1, by rw [hv']; exact Int16.le_refl _⟩
  have hw := C47_partial h.broker a req (Int32.ofNat (tr.sent h.conn + 1)) hv0 hfit hflex hcommit hshut hfull
  obtain ⟨y, stale, hrep, hy, hl⟩ := hs.answers tr h.conn a _ (Int32.ofNat (tr.sent h.conn + 1)) h.broker.config.clientID _ ho hw.1
  have hct : a = .CreateTopics → version h.broker a < 5 := by
    rintro rfl
    simp only [flexible, Protocol.flexibleFrom, Option.any_some, decide_eq_false_iff_not] at hflex
    exact Int16.lt_iff_toInt_lt.mpr (Int.not_le.mp hflex)
  have hrd := a.resp_decodes _ hv0 hct y hy
  rw [← reply_drop hflex (Int32.ofNat (tr.sent h.conn + 1))] at hrd
  have hdo := doCall_reads (conn := h.conn) (call := h.broker.call a req) (env := env) (tr := tr)
    (by rw [← hrep]; exact congrArg _ hw.2) (by rw [C19_response]; exact hrd) hl
  refine ⟨ho, hw.1, y, stale, _, ?_, hy.mono, a.resp_shown _ hv0 hct y hy.typed⟩
  rw [hdo]
  exact congrArg (fun bs => (_, tr ++ [Event.request h.conn bs _])) hw.2

/-! ### Brokers of the protocol

For every list of ranges there is one. -/

mutual
/-- The value is made of scalars, strings of one byte and empty arrays. -/
def sampleVal : Ty → Val → Bool
  | .bool, .bool _ => true
  | .int8, .int8 _ => true
  | .int16, .int16 _ => true
  | .int32, .int32 _ => true
  | .int64, .int64 _ => true
  | .string, .str (some s) => s.length == 1
  | .bytes, .bytes (some s) => s.length == 1
  | .array _, .arr (some xs) => xs.isEmpty
  | .struct fs, x => sampleVals fs x
  | _, _ => false

def sampleVals : Fields → Val → Bool
  | .done, _ => true
  | .cons name _ _ _ t rest, x => sampleVal t (x.get name) && sampleVals rest x
end

mutual
/-- A bound on the bytes of such a value. -/
def room : Ty → Nat
  | .struct fs => rooms fs + 1
  | _ => 8

def rooms : Fields → Nat
  | .done => 0
  | .cons _ _ _ _ t rest => room t + rooms rest
end

mutual
theorem sampleVal_valid (v : Int16) : ∀ (t : Ty) (null : Bool) (x : Val), sampleVal t x = true → t.Valid false v null x
  | .struct fs, null, x, h => by
    rw [sampleVal] at h
    rw [Ty.Valid]
    exact sampleVals_valid v fs x h
  | .bool, _, x, h => by cases x <;> simp_all [sampleVal, Ty.Valid]
  | .int8, _, x, h => by cases x <;> simp_all [sampleVal, Ty.Valid]
  | .int16, _, x, h => by cases x <;> simp_all [sampleVal, Ty.Valid]
  | .int32, _, x, h => by cases x <;> simp_all [sampleVal, Ty.Valid]
  | .int64, _, x, h => by cases x <;> simp_all [sampleVal, Ty.Valid]
  | .string, _, .str (some s), h => by simp only [sampleVal, beq_iff_eq] at h; simp [Ty.Valid, h]
  | .bytes, _, .bytes (some s), h => by simp only [sampleVal, beq_iff_eq] at h; simp [Ty.Valid, h]
  | .array _, _, .arr (some s), h => by simp only [sampleVal, List.isEmpty_iff] at h; simp [Ty.Valid, h]
  | .string, _, .str none, h => by simp [sampleVal] at h
  | .string, _, .bool _, h => by simp [sampleVal] at h
  | .string, _, .int8 _, h => by simp [sampleVal] at h
  | .string, _, .int16 _, h => by simp [sampleVal] at h
  | .string, _, .int32 _, h => by simp [sampleVal] at h
  | .string, _, .int64 _, h => by simp [sampleVal] at h
  | .string, _, .bytes _, h => by simp [sampleVal] at h
  | .string, _, .arr _, h => by simp [sampleVal] at h
  | .string, _, .struct _, h => by simp [sampleVal] at h
  | .bytes, _, .bytes none, h => by simp [sampleVal] at h
  | .bytes, _, .bool _, h => by simp [sampleVal] at h
  | .bytes, _, .int8 _, h => by simp [sampleVal] at h
  | .bytes, _, .int16 _, h => by simp [sampleVal] at h
  | .bytes, _, .int32 _, h => by simp [sampleVal] at h
  | .bytes, _, .int64 _, h => by simp [sampleVal] at h
  | .bytes, _, .str _, h => by simp [sampleVal] at h
  | .bytes, _, .arr _, h => by simp [sampleVal] at h
  | .bytes, _, .struct _, h => by simp [sampleVal] at h
  | .array _, _, .arr none, h => by simp [sampleVal] at h
  | .array _, _, .bool _, h => by simp [sampleVal] at h
  | .array _, _, .int8 _, h => by simp [sampleVal] at h
  | .array _, _, .int16 _, h => by simp [sampleVal] at h
  | .array _, _, .int32 _, h => by simp [sampleVal] at h
  | .array _, _, .int64 _, h => by simp [sampleVal] at h
  | .array _, _, .str _, h => by simp [sampleVal] at h
  | .array _, _, .bytes _, h => by simp [sampleVal] at h
  | .array _, _, .struct _, h => by simp [sampleVal] at h

theorem sampleVals_valid (v : Int16) : ∀ (fs : Fields) (x : Val), sampleVals fs x = true → fs.Valid false v x
  | .done, _, _ => by rw [Fields.Valid]; trivial
  | .cons name since upto nf t rest, x, h => by
    rw [sampleVals, Bool.and_eq_true] at h
    rw [Fields.Valid]
    exact ⟨fun _ => sampleVal_valid v t _ _ h.1, sampleVals_valid v rest x h.2⟩
end

mutual
theorem sampleVal_room (f : Bool) (v : Int16) : ∀ (t : Ty) (x : Val), sampleVal t x = true →
    (t.wire f v x).length ≤ room t
  | .struct fs, x, h => by
    rw [sampleVal] at h
    have h1 := sampleVals_room f v fs x h
    rw [Ty.wire, room, List.length_append]
    have : (if f = true then [(0 : Byte)] else []).length ≤ 1 := by cases f <;> simp
    omega
  | .bool, x, h => by cases x <;> simp_all [sampleVal, Ty.wire, room]
  | .int8, x, h => by cases x <;> simp_all [sampleVal, Ty.wire, room, Protocol.bigEndian_length]
  | .int16, x, h => by cases x <;> simp_all [sampleVal, Ty.wire, room, Protocol.bigEndian_length]
  | .int32, x, h => by cases x <;> simp_all [sampleVal, Ty.wire, room, Protocol.bigEndian_length]
  | .int64, x, h => by cases x <;> simp_all [sampleVal, Ty.wire, room, Protocol.bigEndian_length]
  | .string, .str (some s), h => by
    simp only [sampleVal, beq_iff_eq] at h
    cases f <;> simp [Ty.wire, room, h, Protocol.bigEndian_length, Protocol.uvarint]
  | .bytes, .bytes (some s), h => by
    simp only [sampleVal, beq_iff_eq] at h
    cases f <;> simp [Ty.wire, room, h, Protocol.bigEndian_length, Protocol.uvarint]
  | .array _, .arr (some s), h => by
    simp only [sampleVal, List.isEmpty_iff] at h
    subst h
    cases f <;> simp [Ty.wire, room, Protocol.bigEndian_length, Protocol.uvarint]
  | .string, .str none, h => by simp [sampleVal] at h
  | .string, .bool _, h => by simp [sampleVal] at h
  | .string, .int8 _, h => by simp [sampleVal] at h
  | .string, .int16 _, h => by simp [sampleVal] at h
  | .string, .int32 _, h => by simp [sampleVal] at h
  | .string, .int64 _, h => by simp [sampleVal] at h
  | .string, .bytes _, h => by simp [sampleVal] at h
  | .string, .arr _, h => by simp [sampleVal] at h
  | .string, .struct _, h => by simp [sampleVal] at h
  | .bytes, .bytes none, h => by simp [sampleVal] at h
  | .bytes, .bool _, h => by simp [sampleVal] at h
  | .bytes, .int8 _, h => by simp [sampleVal] at h
  | .bytes, .int16 _, h => by simp [sampleVal] at h
  | .bytes, .int32 _, h => by simp [sampleVal] at h
  | .bytes, .int64 _, h => by simp [sampleVal] at h
  | .bytes, .str _, h => by simp [sampleVal] at h
  | .bytes, .arr _, h => by simp [sampleVal] at h
  | .bytes, .struct _, h => by simp [sampleVal] at h
  | .array _, .arr none, h => by simp [sampleVal] at h
  | .array _, .bool _, h => by simp [sampleVal] at h
  | .array _, .int8 _, h => by simp [sampleVal] at h
  | .array _, .int16 _, h => by simp [sampleVal] at h
  | .array _, .int32 _, h => by simp [sampleVal] at h
  | .array _, .int64 _, h => by simp [sampleVal] at h
  | .array _, .str _, h => by simp [sampleVal] at h
  | .array _, .bytes _, h => by simp [sampleVal] at h
  | .array _, .struct _, h => by simp [sampleVal] at h

theorem sampleVals_room (f : Bool) (v : Int16) : ∀ (fs : Fields) (x : Val), sampleVals fs x = true →
    (fs.wire f v x).length ≤ rooms fs
  | .done, _, _ => by simp [Fields.wire]
  | .cons name since upto nf t rest, x, h => by
    rw [sampleVals, Bool.and_eq_true] at h
    have h1 := sampleVal_room f v t _ h.1
    have h2 := sampleVals_room f v rest x h.2
    rw [Fields.wire, rooms, List.length_append]
    split <;> simp <;> omega
end

theorem response_sample (a : Api) : sampleVals (Protocol.response a) (.struct (sampleFields (Protocol.response a))) = true := by
  cases a <;> decide +kernel

theorem response_room (a : Api) : rooms (Protocol.response a) < 1000 := by cases a <;> decide +kernel

/-- The request says which API it is for and at which version. -/
theorem frame_tells {a a' : Api} {v v' : Int16} {id id' : Int32} {c c' : GoString} {x x' : Val}
    (h : requestFrame a v id c x = requestFrame a' v' id' c' x') : a = a' ∧ v = v' := by
  have hh : ∀ (a : Api) (v : Int16) (id : Int32) (c : GoString) (x : Val), ∃ rest,
      Protocol.requestPayload a v id c x = Wire.bigEndian 2 (Int16.ofNat a.protocolKey).toInt ++ (Wire.bigEndian 2 v.toInt ++ rest) := by
    intro a v id c x
    unfold Protocol.requestPayload
    have hp : (0 : Int16) ≤ Protocol.requestHeaderVersion a v := by
      unfold Protocol.requestHeaderVersion
      repeat' split
      all_goals decide
    simp only [Protocol.RequestHeader, Protocol.field, Fields.wire, Protocol.Present, hp, if_true, Val.get,
      List.lookup, Protocol.Ty.wire, List.append_assoc]
    exact ⟨_, rfl⟩
  obtain ⟨r, hr⟩ := hh a v id c x
  obtain ⟨r', hr'⟩ := hh a' v' id' c' x'
  rw [requestFrame, requestFrame] at h
  have h1 := (List.append_inj h (by simp only [Protocol.bigEndian_length])).2
  rw [hr, hr'] at h1
  obtain ⟨h2, h3⟩ := List.append_inj h1 (by simp only [Protocol.bigEndian_length])
  have h4 := (List.append_inj h3 (by simp only [Protocol.bigEndian_length])).1
  have range : ∀ i : Int16, -2 ^ 15 ≤ i.toInt ∧ i.toInt < 2 ^ 15 := fun i => ⟨i.le_toInt, i.toInt_lt⟩
  have hk := Protocol.len16_inj (range _).1 (range _).2 (range _).1 (range _).2 h2
  have hv := Protocol.len16_inj (range _).1 (range _).2 (range _).1 (range _).2 h4
  refine ⟨protocolKey_inj _ _ ?_, Int16.toInt_inj.1 hv⟩
  have : ∀ a : Api, (Int16.ofNat a.protocolKey).toInt = (a.protocolKey : Int) := by intro a; cases a <;> rfl
  rw [this, this] at hk
  omega

/-- What this broker answers. -/
def sampleAnswer (rs : List Range) (a : Api) (v : Int16) : Val :=
  if a = .ApiVersions ∧ v = 0 then rangesReply rs else .struct (sampleFields (Protocol.response a))

open Classical in
/-- A broker with these versions. -/
noncomputable def sampleServer (rs : List Range) : Env where
  dial _ _ := none
  reply _ _ bytes :=
    if h : ∃ p : Api × Int16, ∃ id c x, bytes = requestFrame p.1 p.2 id c x then
      .frame ((replyPayload h.choose.1 h.choose.2 0 (sampleAnswer rs h.choose.1 h.choose.2)).drop 4) []
    else .never

theorem replyPayload_drop (a : Api) (v : Int16) (id id' : Int32) (y : Val) :
    (replyPayload a v id y).drop 4 = (replyPayload a v id' y).drop 4 := by
  have h : ∀ id, replyPayload a v id y = Wire.bigEndian 4 id.toInt ++
      (Protocol.tags (Protocol.responseHeaderVersion a v = 1) ++ (Ty.struct (Protocol.response a)).wire (flexible a v) v y) := by
    intro id
    unfold replyPayload
    have hp : (0 : Int16) ≤ Protocol.responseHeaderVersion a v := by
      unfold Protocol.responseHeaderVersion
      split <;> decide
    simp only [Protocol.ResponseHeader, Protocol.field, Fields.wire, Protocol.Present, hp, if_true, Val.get,
      List.lookup, List.append_assoc]
    simp [Protocol.Ty.wire]
  rw [h, h, List.drop_left' (Protocol.bigEndian_length _ _), List.drop_left' (Protocol.bigEndian_length _ _)]

theorem sampleServer_reply (rs : List Range) (tr : Trace) (n : Nat) (a : Api) (v : Int16) (id : Int32) (c : GoString) (x : Val) :
    (sampleServer rs).reply tr n (requestFrame a v id c x) =
      .frame ((replyPayload a v id (sampleAnswer rs a v)).drop 4) [] := by
  have h : ∃ p : Api × Int16, ∃ id' c' x', requestFrame a v id c x = requestFrame p.1 p.2 id' c' x' := ⟨(a, v), id, c, x, rfl⟩
  have e : (sampleServer rs).reply tr n (requestFrame a v id c x) =
      .frame ((replyPayload h.choose.1 h.choose.2 0 (sampleAnswer rs h.choose.1 h.choose.2)).drop 4) [] := dif_pos h
  obtain ⟨id', c', x', h1⟩ := h.choose_spec
  obtain ⟨h2, h3⟩ := frame_tells h1
  rw [e, ← h2, ← h3, replyPayload_drop a v 0 id]

theorem sampleServer_serves (rs : List Range) (h : rs.length < 2 ^ 20) (nulls : Bool) : Serves (sampleServer rs) rs nulls := by
  have hr : ∀ id, ((replyPayload .ApiVersions 0 id (rangesReply rs)).drop 4).length < 2 ^ 31 := by
    intro id
    rw [reply_drop (by decide)]
    show (Fields.wire false 0 Protocol.ApiVersionsResponse (rangesReply rs)).length < 2 ^ 31
    have hs : ∀ l : List Range, ((l.map fun r => Val.struct [("ApiKey", .int16 r.key), ("MinVersion", .int16 r.lo),
        ("MaxVersion", .int16 r.hi)]).flatMap
          ((Ty.struct Protocol.ApiVersionsResponseKey).wire false 0)).length = 6 * l.length := by
      intro l
      induction l with
      | nil => rfl
      | cons r l ih =>
        rw [List.map_cons, List.flatMap_cons, List.length_append, ih]
        simp [Protocol.ApiVersionsResponseKey, Protocol.field, Fields.wire, Protocol.Ty.wire, Protocol.Present, Val.get,
          List.lookup, Protocol.bigEndian_length]
        omega
    have hs' := hs rs
    have hl : ∀ l, (Fields.wire false 0 Protocol.ApiVersionsResponse
        (.struct [("ErrorCode", .int16 0), ("ApiKeys", .arr (some l))])).length =
          6 + (l.flatMap ((Ty.struct Protocol.ApiVersionsResponseKey).wire false 0)).length := by
      intro l
      have h1 : ¬ Protocol.Present 0 1 none := by decide
      have h0 : Protocol.Present 0 0 none := by decide
      have e1 : (Val.struct [("ErrorCode", .int16 0), ("ApiKeys", .arr (some l))]).get "ErrorCode" = .int16 0 := rfl
      have e2 : (Val.struct [("ErrorCode", .int16 0), ("ApiKeys", .arr (some l))]).get "ApiKeys" = .arr (some l) := rfl
      simp only [Protocol.ApiVersionsResponse, Protocol.field, Fields.wire, e1, e2, if_pos h0, if_neg h1, Protocol.Ty.wire,
        List.length_append, Protocol.bigEndian_length, Bool.false_eq_true, if_false, List.length_nil]
      omega
    rw [rangesReply, hl, hs']
    omega
  refine ⟨fun _ _ => rfl, by omega, ?_, ?_⟩
  · intro tr n id c x _
    refine ⟨[], ?_, by rw [List.append_nil]; exact hr id⟩
    rw [sampleServer_reply, sampleAnswer, if_pos ⟨rfl, rfl⟩]
  · intro tr n a v id c x _ _
    refine ⟨_, [], sampleServer_reply rs tr n a v id c x, ?_, ?_⟩
    · unfold sampleAnswer
      split
      · rename_i hav
        obtain ⟨rfl, rfl⟩ := hav
        cases nulls
        · exact rangesReply_valid (by omega)
        · exact (rangesReply_valid (by omega)).mono
      · cases nulls
        · exact sampleVals_valid _ _ _ (response_sample a)
        · exact (sampleVals_valid _ _ _ (response_sample a)).mono
    · rw [List.append_nil]
      unfold sampleAnswer
      split
      · rename_i hav
        obtain ⟨rfl, rfl⟩ := hav
        exact hr id
      · have h1 := sampleVals_room (flexible a v) v _ _ (response_sample a)
        have h2 := response_room a
        rw [List.length_drop]
        have h3 : (replyPayload a v id (.struct (sampleFields (Protocol.response a)))).length ≤ 8 + 1000 := by
          unfold replyPayload
          simp only [List.length_append, Protocol.Ty.wire]
          have h4 : (Protocol.ResponseHeader.wire false (Protocol.responseHeaderVersion a v)
              (.struct [("CorrelationId", .int32 id)])).length ≤ 4 := by
            simp only [Protocol.ResponseHeader, Protocol.field, Fields.wire, Val.get, List.lookup]
            split <;> simp [Protocol.bigEndian_length, Protocol.Ty.wire]
          have h5 : (Protocol.tags (Protocol.responseHeaderVersion a v = 1)).length ≤ 1 := by
            unfold Protocol.tags
            split <;> simp
          have h6 : (if flexible a v = true then [(0 : Byte)] else []).length ≤ 1 := by split <;> simp
          omega
        omega

/-! ### What fails -/

theorem Compatible.negotiates {rs : List Range} (hrs : Compatible rs) : ∃ x, Negotiates (some (rs.map Range.entry)) x := by
  refine C23_partial (some (rs.map Range.entry)) ?_
  intro k hk
  simp only [Slice.elems, Option.getD_some, List.mem_map] at hk
  obtain ⟨r, hr, rfl⟩ := hk
  have h0 := (hrs r hr).1
  intro e
  have e' : r.lo = -32768 := e
  rw [e'] at h0
  exact absurd h0 (by decide)

/-- With a broker that has a version of some API beyond those of the library, `NewBroker` fails, though they have
versions in common. -/
theorem C62_newer_fails {env : Env} {rs : List Range} {nulls : Bool} (hs : Serves env rs nulls) (hrs : Compatible rs)
    (addr : GoString) (opts : List Opt) (hm : dialMode (buildConfig opts) ≠ .nilDialer) {r : Range} (hr : r ∈ rs) {a : Api}
    (hk : r.key.toInt = a.protocolKey) (hgt : (a.protocolMax : Int) < r.hi.toInt) (tr : Trace) :
    ∃ e tr', newBroker addr opts env tr = (.err (.wrap .create (.negotiate e)), tr') := by
  obtain ⟨x, hx⟩ := hrs.negotiates
  obtain ⟨tr', e⟩ := newBroker_serves hs addr opts hm tr
  have h1 := e _ hx
  cases x with
  | error y => exact ⟨y, tr', h1⟩
  | ok av =>
    exact absurd hx (C22_newer_fails r.entry a hk hgt av _ (by
      simp only [Slice.elems, Option.getD_some, List.mem_map]; exact ⟨r, hr, rfl⟩))

/-- With a broker that has a flexible version of an API, up to the highest the library knows, that version is used, and
its simplest request is not sent as the protocol says. -/
theorem C62_flexible_fails {env : Env} {rs : List Range} {nulls : Bool} (hs : Serves env rs nulls) (hrs : Compatible rs)
    (addr : GoString) (opts : List Opt) (hm : dialMode (buildConfig opts) ≠ .nilDialer)
    (hmax : ∀ r ∈ rs, ∀ a : Api, r.key.toInt = a.protocolKey → r.hi.toInt ≤ a.protocolMax) (tr0 : Trace) :
    ∃ h tr', newBroker addr opts env tr0 = (.ok h, tr') ∧
      ∀ (a : Api) (tr : Trace), (∃ v, Offers rs a v) →
        (∀ r ∈ rs, r.key.toInt = a.protocolKey → flexible a r.hi = true) → ¬ Understood env rs h a a.req.zero tr := by
  obtain ⟨av, hn⟩ := C22_list_partial (some (rs.map Range.entry)) (by
    intro k hk a ha
    simp only [Slice.elems, Option.getD_some, List.mem_map] at hk
    obtain ⟨r, hr, rfl⟩ := hk
    obtain ⟨h0, h1, _⟩ := hrs r hr
    have h2 := hmax r hr a ha
    rw [Int16.le_iff_toInt_le] at h0 h1
    have e0 : (0 : Int16).toInt = 0 := rfl
    exact ⟨h2, r.hi, h1, Int.le_refl _, by omega, h2⟩)
  obtain ⟨tr', e⟩ := newBroker_serves hs addr opts hm tr0
  refine ⟨_, tr', e _ hn, ?_⟩
  intro a tr hoff hfl
  obtain ⟨r, hr, hk, hv⟩ := offered hn hoff
  generalize hb : ({ broker := { config := buildConfig opts, apiVersion := av }, conn := tr0.dialed } : Handle) = h at *
  have hv' : version h.broker a = r.hi := by rw [← hb]; exact hv
  rintro ⟨_, _, y, stale, x, hdo, _⟩
  obtain ⟨body, stale', d, h1, _⟩ := doCall_ok hdo
  have h2 := (List.append_inj h1 rfl).2
  simp only [List.cons.injEq, Event.request.injEq, and_true, true_and] at h2
  exact C47_flexible_fails h.broker a (by rw [hv']; exact hfl r hr hk) (by rw [hv']; exact hmax r hr a hk) _ h2.1.symm

/-- A method of an API the broker has not named is not refused: the request is sent at version 0. -/
theorem C62_absent_fails {env : Env} {rs : List Range} {nulls : Bool} (hs : Serves env rs nulls) (hrs : Compatible rs)
    (addr : GoString) (opts : List Opt) {h : Handle} {tr0 tr' : Trace} (e : newBroker addr opts env tr0 = (.ok h, tr'))
    (hm : dialMode (buildConfig opts) ≠ .nilDialer)
    (a : Api) (req : a.req.T) (ha : ∀ r ∈ rs, r.key.toInt ≠ a.protocolKey) (tr : Trace) :
    version h.broker a = 0 ∧ ∃ reply, (doCall h.conn (h.broker.call a req) env tr).2 =
      tr ++ [.request h.conn (written h.broker a req (Int32.ofNat (tr.sent h.conn + 1))) reply] := by
  obtain ⟨x, hn⟩ := hrs.negotiates
  obtain ⟨tr2, e2⟩ := newBroker_serves hs addr opts hm tr0
  have e3 := (e2 _ hn).symm.trans e
  cases x with
  | error y => cases e3
  | ok av =>
  cases e3
  refine ⟨C24_missing _ _ hn a ?_, env.reply tr tr0.dialed
    (written { config := buildConfig opts, apiVersion := av } a req (Int32.ofNat (tr.sent tr0.dialed + 1))), ?_⟩
  · intro k hk
    simp only [Slice.elems, Option.getD_some, List.mem_map] at hk
    obtain ⟨r, hr, rfl⟩ := hk
    exact ha r hr
  · unfold doCall
    dsimp only
    split
    · rfl
    · rfl
    · rfl
    · split <;> rfl

/-- The versions Kafka 2.4 has. -/
def kafka24 : List Range := Api.all.map fun a => ⟨Int16.ofNat a.protocolKey, 0, Int16.ofNat a.protocolMax⟩

theorem kafka24_mem {r : Range} (h : r ∈ kafka24) : ∃ a : Api, r = ⟨Int16.ofNat a.protocolKey, 0, Int16.ofNat a.protocolMax⟩ := by
  obtain ⟨a, _, rfl⟩ := List.mem_map.1 h
  exact ⟨a, rfl⟩

theorem protocol_key_toInt (a : Api) : (Int16.ofNat a.protocolKey).toInt = a.protocolKey := by cases a <;> rfl
theorem protocol_max_toInt (a : Api) : (Int16.ofNat a.protocolMax).toInt = a.protocolMax := by cases a <;> rfl

theorem kafka24_key {r : Range} (h : r ∈ kafka24) {a : Api} (hk : r.key.toInt = a.protocolKey) :
    r = ⟨Int16.ofNat a.protocolKey, 0, Int16.ofNat a.protocolMax⟩ := by
  obtain ⟨b, rfl⟩ := kafka24_mem h
  have h1 := protocol_key_toInt b
  have h2 : b = a := protocolKey_inj _ _ (by simp only at hk; omega)
  rw [h2]

theorem kafka24_compatible : Compatible kafka24 := by
  intro r hr
  obtain ⟨b, rfl⟩ := kafka24_mem hr
  refine ⟨show (0 : Int16) ≤ 0 by decide, ?_, ?_⟩
  · rw [Int16.le_iff_toInt_le]
    dsimp only
    rw [protocol_max_toInt]
    exact Int.natCast_nonneg _
  · intro a _
    exact Int.natCast_nonneg _

theorem kafka24_offers (a : Api) : Offers kafka24 a 0 :=
  ⟨⟨Int16.ofNat a.protocolKey, 0, Int16.ofNat a.protocolMax⟩, List.mem_map.2 ⟨a, by cases a <;> decide, rfl⟩, protocol_key_toInt a,
    show (0 : Int16) ≤ 0 by decide, by
      rw [Int16.le_iff_toInt_le]
      dsimp only
      rw [protocol_max_toInt]
      exact Int.natCast_nonneg _⟩

/-- Kafka 2.4 itself: connecting succeeds; of the 48 APIs the 24 that have flexible versions are sent requests that are not of
the protocol; the others are understood, for requests as in C47 and replies as in C48. -/
theorem C62_kafka24 {env : Env} (hs : Serves env kafka24 false) (addr : GoString) (opts : List Opt)
    (hm : dialMode (buildConfig opts) ≠ .nilDialer) (tr0 : Trace) :
    ∃ h tr', newBroker addr opts env tr0 = (.ok h, tr') ∧
      (∀ (a : Api) (tr : Trace), Protocol.flexibleFrom a ≠ none → ¬ Understood env kafka24 h a a.req.zero tr) ∧
      ∀ (a : Api) (req : a.req.T) (tr : Trace), Protocol.flexibleFrom a = none → a.reqLayout.Fits (version h.broker a) req →
        a.reqFull (version h.broker a) req → Understood env kafka24 h a req tr := by
  have hmax : ∀ r ∈ kafka24, ∀ a : Api, r.key.toInt = a.protocolKey → r.hi.toInt ≤ a.protocolMax := by
    intro r hr a hk
    rw [kafka24_key hr hk]
    dsimp only
    rw [protocol_max_toInt]
    exact Int.le_refl _
  obtain ⟨h, tr', e, h1⟩ := C62_flexible_fails hs kafka24_compatible addr opts hm hmax tr0
  obtain ⟨h', tr'', e', h2⟩ := C62_partial hs kafka24_compatible addr opts hm hmax tr0
  cases e.symm.trans e'
  refine ⟨h, tr', e, ?_, ?_⟩
  · intro a tr ha
    refine h1 a tr ⟨0, kafka24_offers a⟩ ?_
    intro r hr hk
    rw [kafka24_key hr hk]
    revert ha
    cases a <;> simp [Protocol.flexibleFrom] <;> decide
  · intro a req tr ha hfit hfull
    refine h2 a req tr ⟨0, kafka24_offers a⟩ ?_ hfit ?_ ?_ hfull
    · intro r hr hk
      simp [flexible, ha]
    · rintro rfl; simp [Protocol.flexibleFrom] at ha
    · rintro ⟨rfl, _⟩; simp [Protocol.flexibleFrom] at ha

/-- The full claim is false. -/
theorem C62_fails : ¬ C62_statement := by
  intro h
  have hl : kafka24.length < 2 ^ 20 := by decide
  obtain ⟨x, tr', e, h1⟩ := h (sampleServer kafka24) kafka24 [] [] (sampleServer_serves _ hl true) kafka24_compatible (by decide)
  obtain ⟨x', tr'', e', h2, _⟩ := C62_kafka24 (sampleServer_serves kafka24 hl false) [] [] (by decide) []
  cases e.symm.trans e'
  exact h2 .ListGroups [] (by decide) (h1 .ListGroups (Api.ListGroups).req.zero [] ⟨0, kafka24_offers _⟩ trivial)

/-- There is a broker of Kafka 2.4 in the model. -/
example : Serves (sampleServer kafka24) kafka24 false := sampleServer_serves _ (by decide) _

/-- A Produce request to it is understood. -/
example : ∃ h tr', newBroker (goString "b:9092") [] (sampleServer kafka24) [] = (.ok h, tr') ∧
    ∀ tr, Understood (sampleServer kafka24) kafka24 h .Produce ({ Acks := 1, Topics := some [{ Name := goString "t" }] } : ProduceRequest) tr := by
  obtain ⟨h, tr', e, _, h2⟩ := C62_kafka24 (sampleServer_serves kafka24 (by decide) false) (goString "b:9092") [] (by decide) []
  refine ⟨h, tr', e, fun tr => h2 .Produce _ tr rfl ?_ ?_⟩
  · constructor
    all_goals simp [FitsAll, FitsSlice, FitsString, Slice.len, Slice.elems]
    constructor
    all_goals simp [FitsAll, FitsSlice, FitsString, Slice.len, Slice.elems, goString]
  · trivial

/-- Ranges as in `C62_newer_fails`. -/
example : Compatible [⟨0, 0, 9⟩] ∧ ((Api.Produce).protocolMax : Int) < (9 : Int16).toInt := by
  refine ⟨?_, by decide⟩
  intro r hr
  rw [List.mem_singleton] at hr
  subst hr
  exact ⟨by decide, by decide, fun _ _ => Int.natCast_nonneg _⟩

end Kafka.Props
