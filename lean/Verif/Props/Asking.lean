import Verif.Protocol.Inject
import Verif.Props.Protocol
import Verif.Props.Returns
/-!
What brokers read in the requests: of the 48 API methods (C47), and of the operations of a client (C71).
-/
namespace Kafka.Props

open Kafka.Client Kafka.Msg
open Protocol (flexible requestFrame requestPayload Val Fields)

/-! ## C47: the meaning of a request -/

/-- `bytes` are a request of the protocol: of API `a` at version `v`, which is not flexible, with the value `x`. -/
def Means (a : Api) (bytes : List Byte) (v : Int16) (x : Val) : Prop :=
  0 ≤ v ∧ flexible a v = false ∧ ¬(a = .ControlledShutdown ∧ v = 0) ∧ (Protocol.request a).Valid true v x ∧
    ∃ (id : Int32) (client : GoString), client.length < 2 ^ 15 ∧ bytes = requestFrame a v id client x

theorem payload_plain {a : Api} {v : Int16} (id : Int32) (client : GoString) (x : Val)
    (hflex : flexible a v = false) (hshut : ¬(a = .ControlledShutdown ∧ v = 0)) :
    requestPayload a v id client x =
      Wire.requestPayload a.key v id client ((Protocol.request a).wire false v x) := by
  have hh := Msg.RequestHeader.conforms (v := 1) (by decide) (requestHeader (Int16.ofNat a.protocolKey) v id client)
  unfold requestPayload
  rw [request_header hflex hshut, hflex, Protocol.Ty.wire]
  rw [← key_protocol a] at hh ⊢
  exact congrArg (· ++ _) ((congrArg (· ++ _) hh).trans (List.append_nil _)) |>.trans
    (by rw [if_neg (by decide), List.append_nil]; rfl)

/-- What a call has written is a message of no other API or version. -/
theorem Means.header {b : Broker} {a : Api} {req : a.req.T} {id : Int32} {a' : Api} {v : Int16} {x : Val}
    (hc : b.config.clientID.length < 2 ^ 15) (h : Means a' (written b a req id) v x) :
    a' = a ∧ v = version b a ∧ body b a req = (Protocol.request a').wire false v x := by
  obtain ⟨_, hflex, hshut, _, id', client, hcl, h⟩ := h
  rw [written, (call_emits b a req id).bytesOf, requestFrame, payload_plain _ _ _ hflex hshut, ← body_eq b a req] at h
  have h1 := (List.append_inj h (by rw [Wire.int32, Protocol.bigEndian_length, Protocol.bigEndian_length])).2
  have h2 := congrArg Wire.parseRequest h1
  rw [parse_payload _ _ _ hc, parse_payload _ _ _ hcl] at h2
  simp only [Option.some.injEq, Wire.ParsedRequest.mk.injEq] at h2
  exact ⟨(Api.key_inj (Int16.toInt_inj.1 h2.1)).symm, (Int16.toInt_inj.1 h2.2.1).symm, h2.2.2.2.2⟩

/-- There is no other way to read a request: any message of the protocol with the bytes of a call has the API, the
version, and in the fields of that version the values of the request.  (Under the same conditions as `C47_partial`.) -/
theorem C47_meaning_partial (b : Broker) (a : Api) (req : a.req.T) (id : Int32)
    (hfit : a.reqLayout.Fits (version b a) req) (hcommit : a = .OffsetCommit → version b a ≠ 1)
    (hfull : a.reqFull (version b a) req) (hc : b.config.clientID.length < 2 ^ 15) (a' : Api) (v : Int16) (x : Val) (h : Means a' (written b a req id) v x) :
    a' = a ∧ v = version b a ∧ (Protocol.request a').view v x = (Protocol.request a).view (version b a) (a.reqVal req) := by
  obtain ⟨h1, h2, h3⟩ := h.header hc
  obtain ⟨hv, _, _, hx, _⟩ := h
  subst h1 h2
  refine ⟨rfl, rfl, ?_⟩
  rw [body_eq, ← a'.req_conforms _ hv hcommit req] at h3
  exact ((Protocol.request a').tells true _ _ _ [] [] hx (a'.req_valid _ hv hcommit req hfit hfull)
    (by rw [List.append_nil, List.append_nil, h3])).1

/-! ## C71: what the operations of a client ask for -/

/-- The topics a Metadata request is about; `none` for all there are.  (The protocol on the field Topics: "In version 0,
an empty array indicates 'request metadata for all topics.'  In version 1 and higher, an empty array indicates 'request
metadata for no topics,' and a null array is used to indicate 'request metadata for all topics.'") -/
def about (v : Int16) (x : Val) : Option (List Val) :=
  match x.get "Topics" with
  | .arr (some ts) => if v = 0 ∧ ts.isEmpty then none else some (ts.map (·.get "Name"))
  | _ => none

/-- The request lets the broker create topics: those it names and that are not there.  (The protocol on the field
AllowAutoTopicCreation, which is there from version 4 on: "If this is true, the broker may auto-create topics that we
requested which do not already exist, if it is configured to do so."  Before, brokers always may.) -/
def Creates (v : Int16) (x : Val) : Prop :=
  (∃ t ts, about v x = some (t :: ts)) ∧ (v < 4 ∨ x.get "AllowAutoTopicCreation" = .bool true)

/-- The topics the caller names. -/
def ClientOp.topics {α : Type} : ClientOp α → List GoString
  | .metadata topics => topics
  | .leader topic _ => [topic]
  | _ => []

/-- The consumer group the caller names. -/
def ClientOp.group {α : Type} : ClientOp α → Option GoString
  | .coordinator group => some group
  | _ => none

/-- The names have lengths that can be represented. -/
def ClientOp.Fits {α : Type} (op : ClientOp α) : Prop :=
  op.topics.length < 2 ^ 31 ∧ (∀ t ∈ op.topics, t.length < 2 ^ 15) ∧ ∀ g, op.group = some g → g.length < 2 ^ 15

/-- A request only looks up what the caller has named: it is for versions, or about just the topics named without
letting the broker create them, or for the coordinator of the group named. -/
def LooksUp {α : Type} (op : ClientOp α) : Api → Int16 → Val → Prop
  | .ApiVersions, _, _ => True
  | .Metadata, v, x => op.group = none ∧ about v x = some (op.topics.map fun t => .str (some t)) ∧ ¬Creates v x
  | .FindCoordinator, v, x =>
    ∃ g, op.group = some g ∧ x.get "Key" = .str (some g) ∧ (1 ≤ v → x.get "KeyType" = .int8 0)
  | _, _, _ => False

/-- The full claim: all requests of an operation only look up what the caller has named. -/
def C71_statement : Prop :=
  ∀ {α : Type} (us : List UserOption) (bootstrap : List GoString) (op : ClientOp α) (env : Env) (tr : Trace), op.Fits →
    ∃ ev, (op.run (newClient bootstrap (us.map UserOption.opt)) env tr).2 = tr ++ ev ∧
      ∀ n bytes r, .request n bytes r ∈ ev → ∀ a v x, Means a bytes v x → LooksUp op a v x

/-- What an operation does on the network. -/
def Does1 {α : Type} (opts : List Opt) (op : ClientOp α) : Event → Prop
  | .dial .. => True
  | .request _ bytes _ => ∃ (b : Broker) (id : Int32), b.config.clientID = (buildConfig opts).clientID ∧
    (bytes = written b .ApiVersions ({} : ApiVersionsRequest) id ∨
      (op.group = none ∧ bytes = written b .Metadata (metadataRequest op.topics) id) ∨
      ∃ g, op.group = some g ∧ bytes = written b .FindCoordinator ({ Key := g, KeyType := 0 } : FindCoordinatorRequest) id)
  | .close _ => False

theorem newBroker_does1 {α : Type} (op : ClientOp α) (addr : GoString) (opts : List Opt) : Does (Does1 opts op) (newBroker addr opts) :=
  Does.newBroker (fun _ => trivial) fun _ id _ => ⟨{ config := buildConfig opts }, id, rfl, .inl rfl⟩

theorem dialLoop_does1 {α β : Type} (op : ClientOp β) (opts : List Opt) (cb : Handle → M α) (zero : α)
    (hcb : ∀ h : Handle, h.broker.config = buildConfig opts → Does (Does1 opts op) (cb h)) :
    ∀ (addrs : List GoString) (last : Option Err), Does (Does1 opts op) (dialLoop opts cb zero addrs last) := by
  intro addrs
  induction addrs with
  | nil =>
    intro last
    cases last with
    | none => exact Does.ok zero
    | some e => exact Does.err e
  | cons a addrs ih =>
    intro last env tr
    obtain ⟨ev, h1, h2⟩ := newBroker_does1 op a opts env tr
    have join : ∀ ev' : List Event, (∀ e ∈ ev', Does1 opts op e) → ∀ e ∈ ev ++ ev', Does1 opts op e := by
      intro ev' h e he
      rcases List.mem_append.1 he with he | he
      · exact h2 e he
      · exact h e he
    unfold dialLoop
    split
    · rename_i h tr1 hb
      obtain ⟨ev', h3, h4⟩ := hcb h (newBroker_config hb) env tr1
      rw [hb] at h1
      dsimp only at h1
      exact ⟨ev ++ ev', by rw [h3, h1, List.append_assoc], join ev' h4⟩
    · rename_i e tr1 hb
      obtain ⟨ev', h3, h4⟩ := ih (some e) env tr1
      rw [hb] at h1
      dsimp only at h1
      exact ⟨ev ++ ev', by rw [h3, h1, List.append_assoc], join ev' h4⟩
    all_goals
      rename_i tr1 hb
      rw [hb] at h1
      exact ⟨ev, h1, h2⟩

theorem metadata_does1 {α : Type} (op : ClientOp α) (c : Client) (hg : op.group = none) :
    Does (Does1 c.opts op) (c.metadata op.topics) :=
  dialLoop_does1 op c.opts _ _ (fun h hc => Does.doCall fun id _ => ⟨h.broker, id, by rw [hc], .inr (.inl ⟨hg, rfl⟩)⟩) _ _

theorem dialNode_does1 {α : Type} (op : ClientOp α) (c : Client) (m : MetadataResponse) (id : Int32) :
    Does (Does1 c.opts op) (c.dialNode m id) := by
  rcases dialNode_cases c m id with ⟨b, _, _, h⟩ | ⟨_, h⟩
  · rw [h]; exact newBroker_does1 _ _ _
  · rw [h]; exact Does.err _

theorem op_does1 {α : Type} (c : Client) (op : ClientOp α) : Does (Does1 c.opts op) (op.run c) := by
  cases op with
  | metadata topics => exact metadata_does1 (.metadata topics) c rfl
  | controller => exact (metadata_does1 .controller c rfl).bind fun m => dialNode_does1 _ c m _
  | leader topic partition =>
    refine (metadata_does1 (.leader topic partition) c rfl).bind fun m => ?_
    split
    · exact Does.err _
    · split
      · exact Does.err _
      · exact dialNode_does1 _ c m _
  | coordinator group =>
    refine Does.bind (dialLoop_does1 _ c.opts _ _ (fun h hc => Does.doCall fun id r => ?_) _ _) fun resp => newBroker_does1 _ _ _
    exact ⟨h.broker, id, by rw [hc], .inr (.inr ⟨group, rfl, rfl⟩)⟩

theorem fits_request {topics : List GoString} (h1 : topics.length < 2 ^ 31) (h2 : ∀ t ∈ topics, t.length < 2 ^ 15) (v : Int16) :
    (Api.Metadata).reqLayout.Fits v (metadataRequest topics) := by
  refine ⟨?_⟩
  unfold metadataRequest
  split
  · simp [FitsAll, FitsSlice, Slice.len, Slice.elems]
  · refine ⟨?_, ?_⟩
    · simp [FitsSlice, Slice.len, Slice.elems]; omega
    · intro t hm
      simp only [Slice.elems, Option.getD_some, List.mem_map] at hm
      obtain ⟨s, hs, rfl⟩ := hm
      exact ⟨by have := h2 s hs; simp [FitsString]; omega⟩

theorem present_from {v s : Int16} (h : s ≤ v) : Protocol.Present v s none := h

theorem topics_val (topics : List GoString) : (MetadataRequest.val (metadataRequest topics)).get "Topics" =
    .arr (some (topics.map fun t => .struct [("Name", .str (some t))])) := by
  cases topics with
  | nil => rfl
  | cons t ts =>
    show Protocol.ofStructs _ _ = _
    simp only [Protocol.ofStructs, metadataRequest, Slice.elems, if_neg (List.cons_ne_nil t ts), Option.getD_some, List.map_map]
    rfl

/-- What a broker reads in the request of `Metadata`. -/
theorem topics_read {v : Int16} (hv : 0 ≤ v) {topics : List GoString} {x : Val}
    (h : Protocol.MetadataRequest.view v x = Protocol.MetadataRequest.view v (MetadataRequest.val (metadataRequest topics))) :
    (∃ ts, x.get "Topics" = .arr (some ts) ∧ (ts.map (·.get "Name")) = topics.map fun t => .str (some t)) ∧
      (4 ≤ v → x.get "AllowAutoTopicCreation" = .bool false) := by
  have e : ∀ y : Val, Protocol.MetadataRequest.view v y =
      ("Topics", (Protocol.Ty.array (.struct Protocol.MetadataRequestTopic)).view v (y.get "Topics")) ::
        Protocol.Fields.view v (Protocol.field "AllowAutoTopicCreation" 4 .bool <|
          Protocol.field "IncludeClusterAuthorizedOperations" 8 .bool <|
          Protocol.field "IncludeTopicAuthorizedOperations" 8 .bool .done) y := fun y => by
    show Protocol.Fields.view v (.cons "Topics" 0 none _ _ _) y = _
    rw [Protocol.Fields.view, if_pos (present_from hv)]
  rw [e, e, List.cons.injEq, Prod.mk.injEq, topics_val] at h
  obtain ⟨⟨_, h1⟩, h2⟩ := h
  refine ⟨?_, fun h4 => ?_⟩
  · cases hx : x.get "Topics" with
    | arr s =>
      rw [hx] at h1
      cases s with
      | none => simp [Protocol.Ty.view] at h1
      | some ts =>
        refine ⟨ts, rfl, ?_⟩
        have w : ∀ y : Val, (Protocol.Ty.struct Protocol.MetadataRequestTopic).view v y = .struct [("Name", y.get "Name")] := fun y => by
          show Protocol.Ty.view v (.struct (.cons "Name" 0 none _ _ _)) y = _
          rw [Protocol.Ty.view, Protocol.Fields.view, if_pos (present_from hv), Protocol.Fields.view]
          cases y.get "Name" <;> rfl
        simp only [Protocol.Ty.view, Val.arr.injEq, Option.some.injEq, List.map_map] at h1
        have h3 := congrArg (List.map (·.get "Name")) h1
        simp only [List.map_map] at h3
        refine Eq.trans ?_ (h3.trans ?_)
        · apply List.map_congr_left
          intro y _
          exact (congrArg (·.get "Name") (w y)).symm
        · apply List.map_congr_left
          intro y _
          exact congrArg (·.get "Name") (w (.struct [("Name", .str (some y))]))
    | _ => rw [hx] at h1; simp [Protocol.Ty.view] at h1
  · simp only [Protocol.field, Protocol.Fields.view, if_pos (present_from h4), List.cons.injEq, Prod.mk.injEq, true_and] at h2
    have h3 := h2.1
    have w : ∀ y : Val, Protocol.Ty.bool.view v y = y := fun y => by cases y <;> rfl
    rw [w, w] at h3
    exact h3

theorem metadata_read {v : Int16} (hv : 0 ≤ v) {topics : List GoString} {x : Val}
    (h : Protocol.MetadataRequest.view v x = Protocol.MetadataRequest.view v (MetadataRequest.val (metadataRequest topics))) :
    about v x = (if v = 0 ∧ topics = [] then none else some (topics.map fun t => .str (some t))) ∧
      (Creates v x ↔ topics ≠ [] ∧ v < 4) := by
  obtain ⟨⟨ts, h1, h2⟩, h3⟩ := topics_read hv h
  have he : ts.isEmpty = true ↔ topics = [] := by
    rw [List.isEmpty_iff, ← List.map_eq_nil_iff (f := (·.get "Name")), h2, List.map_eq_nil_iff]
  have ha : about v x = if v = 0 ∧ topics = [] then none else some (topics.map fun t => .str (some t)) := by
    unfold about
    rw [h1]
    dsimp only
    rw [h2]
    simp only [he]
  refine ⟨ha, ?_⟩
  unfold Creates
  rw [ha]
  constructor
  · rintro ⟨⟨t, ts', h4⟩, h5⟩
    refine ⟨?_, ?_⟩
    · rintro rfl
      split at h4 <;> simp at h4
    · rcases h5 with h5 | h5
      · exact h5
      · by_cases h4 : 4 ≤ v
        · rw [h3 h4] at h5
          simp at h5
        · exact Int16.not_le.1 h4
  · rintro ⟨h4, h5⟩
    cases topics with
    | nil => simp at h4
    | cons t ts' => exact ⟨⟨.str (some t), ts'.map fun t => .str (some t), by rw [if_neg (by simp)]; rfl⟩, .inl h5⟩

theorem coordinator_read {v : Int16} (hv : 0 ≤ v) {req : FindCoordinatorRequest} {x : Val}
    (h : Protocol.FindCoordinatorRequest.view v x = Protocol.FindCoordinatorRequest.view v (FindCoordinatorRequest.val req)) :
    x.get "Key" = .str (some req.Key) ∧ (1 ≤ v → x.get "KeyType" = .int8 req.KeyType) := by
  have ws : ∀ y : Val, Protocol.Ty.string.view v y = y := fun y => by cases y <;> rfl
  have wi : ∀ y : Val, Protocol.Ty.int8.view v y = y := fun y => by cases y <;> rfl
  have e : ∀ y : Val, Protocol.FindCoordinatorRequest.view v y =
      ("Key", y.get "Key") :: if 1 ≤ v then [("KeyType", y.get "KeyType")] else [] := fun y => by
    show Protocol.Fields.view v (.cons "Key" 0 none none .string (.cons "KeyType" 1 none none .int8 .done)) y = _
    rw [Protocol.Fields.view, if_pos (present_from hv), Protocol.Fields.view, Protocol.Fields.view, ws, wi]
    rfl
  rw [e, e, List.cons.injEq, Prod.mk.injEq] at h
  refine ⟨h.1.2, fun h1 => ?_⟩
  rw [if_pos h1, if_pos h1, List.cons.injEq, Prod.mk.injEq] at h
  exact h.2.1.2

/-- What the requests of an operation say, at every version that is not flexible. -/
theorem C71_asks {α : Type} (us : List UserOption) (bootstrap : List GoString) (op : ClientOp α) (env : Env) (tr : Trace)
    (hf : op.Fits) :
    ∃ ev, (op.run (newClient bootstrap (us.map UserOption.opt)) env tr).2 = tr ++ ev ∧
      ∀ n bytes r, .request n bytes r ∈ ev → ∀ a v x, Means a bytes v x →
        a = .ApiVersions ∨
        (a = .Metadata ∧ op.group = none ∧
          about v x = (if v = 0 ∧ op.topics = [] then none else some (op.topics.map fun t => .str (some t))) ∧
          (Creates v x ↔ op.topics ≠ [] ∧ v < 4)) ∨
        (a = .FindCoordinator ∧ ∃ g, op.group = some g ∧ x.get "Key" = .str (some g) ∧ (1 ≤ v → x.get "KeyType" = .int8 0)) := by
  obtain ⟨ev, h1, h2⟩ := op_does1 (newClient bootstrap (us.map UserOption.opt)) op env tr
  refine ⟨ev, h1, fun n bytes r h a v x hm => ?_⟩
  obtain ⟨b, id, h3, h4⟩ := h2 _ h
  have hc : b.config.clientID.length < 2 ^ 15 := by
    rw [h3]
    show (buildConfig (us.map UserOption.opt)).clientID.length < 2 ^ 15
    rw [C41_config]
    exact (by decide : (goString "github.com/savaki/kafka").length < 2 ^ 15)
  have hv := hm.1
  rcases h4 with rfl | ⟨hg, rfl⟩ | ⟨g, hg, rfl⟩
  · exact .inl (hm.header hc).1
  · obtain ⟨rfl, rfl, h5⟩ := C47_meaning_partial b .Metadata _ id (fits_request hf.1 hf.2.1 _) (by simp) trivial hc a v x hm
    exact .inr (.inl ⟨rfl, hg, metadata_read hv h5⟩)
  · have hl := hf.2.2 g hg
    obtain ⟨rfl, rfl, h5⟩ := C47_meaning_partial b .FindCoordinator _ id ⟨by simpa [FitsString] using hl⟩ (by simp) trivial hc a v x hm
    exact .inr (.inr ⟨rfl, g, hg, coordinator_read hv h5⟩)

/-- The claim holds of brokers with which version 4 of Metadata or a later one has been agreed on.  Missing: the
versions before, see `C71_creates` and `C71_all`; flexible versions are left out, see C47. -/
theorem C71_partial {α : Type} (us : List UserOption) (bootstrap : List GoString) (op : ClientOp α) (env : Env) (tr : Trace)
    (hf : op.Fits) :
    ∃ ev, (op.run (newClient bootstrap (us.map UserOption.opt)) env tr).2 = tr ++ ev ∧
      ∀ n bytes r, .request n bytes r ∈ ev → ∀ a v x, Means a bytes v x → (a = .Metadata → 4 ≤ v) → LooksUp op a v x := by
  obtain ⟨ev, h1, h2⟩ := C71_asks us bootstrap op env tr hf
  refine ⟨ev, h1, fun n bytes r h a v x hm h4 => ?_⟩
  rcases h2 n bytes r h a v x hm with rfl | ⟨rfl, hg, ha, hcr⟩ | ⟨rfl, hg⟩
  · trivial
  · have h4 := h4 rfl
    refine ⟨hg, ?_, fun hc => Int16.not_le.2 (hcr.1 hc).2 h4⟩
    rw [ha, if_neg]
    rintro ⟨rfl, _⟩
    exact absurd h4 (by decide)
  · exact hg

/-- The request a call makes is the first thing that happens in it. -/
theorem doCall_request {α : Type} (conn : Nat) (call : Call α) (env : Env) (tr : Trace) :
    ∃ r, (doCall conn call env tr).2 = tr ++ [.request conn (bytesOf (call.encode (Int32.ofNat (tr.sent conn + 1)))) r] := by
  unfold doCall
  dsimp only
  split <;> first | exact ⟨_, rfl⟩ | (split <;> exact ⟨_, rfl⟩)

/-- With a broker that has agreed on a version of Metadata that is not flexible, `Metadata` sends it the request that is
about the topics named. -/
theorem metadata_sends {c : Client} {env : Env} {tr tr1 : Trace} {h : Handle} (e : FirstUp env c.opts tr c.bootstrap h tr1)
    (topics : List GoString) (h1 : topics.length < 2 ^ 31) (h2 : ∀ t ∈ topics, t.length < 2 ^ 15)
    (hv : 0 ≤ version h.broker .Metadata) (hflex : flexible .Metadata (version h.broker .Metadata) = false)
    (hc : h.broker.config.clientID.length < 2 ^ 15) :
    ∃ n bytes r, (c.metadata topics env tr).2 = tr1 ++ [.request n bytes r] ∧
      Means .Metadata bytes (version h.broker .Metadata) (MetadataRequest.val (metadataRequest topics)) := by
  rw [C39_metadata e topics]
  obtain ⟨r, hr⟩ := doCall_request h.conn (h.broker.metadata (metadataRequest topics)) env tr1
  obtain ⟨h3, h4⟩ := C47_partial h.broker .Metadata (metadataRequest topics) (Int32.ofNat (tr1.sent h.conn + 1)) hv
    (fits_request h1 h2 _) hflex (by simp) (by simp) trivial
  exact ⟨_, _, r, hr, hv, hflex, by simp, h3, _, _, hc, h4⟩

/-- Below version 4, every request about topics lets the broker create them. -/
theorem C71_creates {c : Client} {env : Env} {tr tr1 : Trace} {h : Handle} (e : FirstUp env c.opts tr c.bootstrap h tr1)
    (topics : List GoString) (h1 : topics.length < 2 ^ 31) (h2 : ∀ t ∈ topics, t.length < 2 ^ 15)
    (hv : 0 ≤ version h.broker .Metadata) (hv4 : version h.broker .Metadata < 4)
    (hc : h.broker.config.clientID.length < 2 ^ 15) (hne : topics ≠ []) :
    ∃ n bytes r x, .request n bytes r ∈ (c.metadata topics env tr).2 ∧
      Means .Metadata bytes (version h.broker .Metadata) x ∧ Creates (version h.broker .Metadata) x := by
  obtain ⟨n, bytes, r, h3, h4⟩ := metadata_sends e topics h1 h2 hv (by
    have h := Int16.lt_iff_toInt_lt.1 hv4
    have h9 : (4 : Int16).toInt = 4 := rfl
    simp only [flexible, Protocol.flexibleFrom, Option.any_some, decide_eq_false_iff_not]
    omega) hc
  exact ⟨n, bytes, r, _, by rw [h3]; simp, h4, (metadata_read hv rfl).2.2 ⟨hne, hv4⟩⟩

/-- At version 0, a request that names no topic is about all of them. -/
theorem C71_all {c : Client} {env : Env} {tr tr1 : Trace} {h : Handle} (e : FirstUp env c.opts tr c.bootstrap h tr1)
    (hv : version h.broker .Metadata = 0) (hc : h.broker.config.clientID.length < 2 ^ 15) :
    ∃ n bytes r x, .request n bytes r ∈ (c.metadata [] env tr).2 ∧ Means .Metadata bytes 0 x ∧ about 0 x = none := by
  obtain ⟨n, bytes, r, h3, h4⟩ := metadata_sends e [] (by simp) (by simp) (by rw [hv]; decide) (by rw [hv]; decide) hc
  rw [hv] at h4
  exact ⟨n, bytes, r, _, by rw [h3]; simp, h4, rfl⟩

/-- A broker at the first address that has the versions of Metadata up to `mv`. -/
theorem sample_up {mv : Int16} (hk : (match newBroker addrA [] (sampleNet (fun _ => true) mv [] []) [] with
      | (.ok h, _) => decide (version h.broker .Metadata = mv ∧ h.broker.config.clientID.length < 2 ^ 15)
      | _ => false) = true) :
    ∃ h tr1, FirstUp (sampleNet (fun _ => true) mv [] []) (newClient [addrA] []).opts [] (newClient [addrA] []).bootstrap h tr1 ∧
      version h.broker .Metadata = mv ∧ h.broker.config.clientID.length < 2 ^ 15 := by
  split at hk
  · rename_i h tr1 e
    exact ⟨h, tr1, .here e, of_decide_eq_true hk⟩
  · cases hk


/-- The full claim is false, for each of two reasons: a broker with Metadata up to version 3 may create the topic asked
about... -/
theorem C71_fails_create : ¬C71_statement := by
  intro hst
  obtain ⟨h, tr1, hf, hv, hc⟩ := sample_up (mv := 3) (by decide +kernel)
  obtain ⟨n, bytes, r, x, h1, h2, h3⟩ := C71_creates hf [goString "t"] (by decide) (by decide) (by rw [hv]; decide)
    (by rw [hv]; decide) hc (by simp)
  obtain ⟨ev, h4, h5⟩ := hst [] [addrA] (.metadata [goString "t"]) (sampleNet (fun _ => true) 3 [] []) []
    ⟨by decide, by decide, fun _ h => by cases h⟩
  have h6 : (newClient [addrA] []).metadata [goString "t"] (sampleNet (fun _ => true) 3 [] []) [] =
    (ClientOp.metadata [goString "t"]).run (newClient [addrA] ([].map UserOption.opt)) (sampleNet (fun _ => true) 3 [] []) [] := rfl
  rw [h6, h4, List.nil_append] at h1
  exact (h5 n bytes r h1 _ _ _ h2).2.2 h3

/-- ... and one that has only version 0 is asked for all topics by a call that names none. -/
theorem C71_fails_all : ¬C71_statement := by
  intro hst
  obtain ⟨h, tr1, hf, hv, hc⟩ := sample_up (mv := 0) (by decide +kernel)
  obtain ⟨n, bytes, r, x, h1, h2, h3⟩ := C71_all hf hv hc
  obtain ⟨ev, h4, h5⟩ := hst [] [addrA] (.metadata []) (sampleNet (fun _ => true) 0 [] []) []
    ⟨by decide, by decide, fun _ h => by cases h⟩
  have h6 : (newClient [addrA] []).metadata [] (sampleNet (fun _ => true) 0 [] []) [] =
    (ClientOp.metadata []).run (newClient [addrA] ([].map UserOption.opt)) (sampleNet (fun _ => true) 0 [] []) [] := rfl
  rw [h6, h4, List.nil_append] at h1
  have h7 := (h5 n bytes r h1 _ _ _ h2).2.1
  rw [h3] at h7
  cases h7

/-- A request as in `C71_partial`: a broker with Metadata up to version 8 is asked about two topics. -/
example : ∃ n bytes r x, .request n bytes r ∈ ((newClient [addrA] []).metadata [goString "t", goString "u"]
      (sampleNet (fun _ => true) 8 [] []) []).2 ∧ Means .Metadata bytes 8 x ∧
    about 8 x = some [.str (some (goString "t")), .str (some (goString "u"))] ∧ ¬Creates 8 x := by
  obtain ⟨h, tr1, hf, hv, hc⟩ := sample_up (mv := 8) (by decide +kernel)
  obtain ⟨n, bytes, r, h3, h4⟩ := metadata_sends hf [goString "t", goString "u"] (by decide) (by decide) (by rw [hv]; decide)
    (by rw [hv]; decide) hc
  rw [hv] at h4
  exact ⟨n, bytes, r, _, by rw [h3]; simp, h4, rfl, fun hc => absurd ((metadata_read (by decide) rfl).2.1 hc).2 (by decide)⟩

/-- At version 9, which is flexible, a call that names no topic writes a request about all topics, and one byte more. -/
theorem C71_flexible (b : Broker) (hv : version b .Metadata = 9) (id : Int32) :
    ∃ x, (Protocol.request .Metadata).Valid true 9 x ∧ about 9 x = none ∧
      (written b .Metadata (metadataRequest []) id).drop 4 = requestPayload .Metadata 9 id b.config.clientID x ++ [0] := by
  refine ⟨.struct [("Topics", .arr none), ("AllowAutoTopicCreation", .bool false),
    ("IncludeClusterAuthorizedOperations", .bool false), ("IncludeTopicAuthorizedOperations", .bool false)], ?_, rfl, ?_⟩
  · simp only [Protocol.request, Protocol.MetadataRequest, Protocol.nullable, Protocol.field, Protocol.Fields.Valid]
    exact ⟨fun _ => rfl, fun _ => trivial, fun _ => trivial, fun _ => trivial, trivial⟩
  · have hh : Protocol.RequestHeader.wire false 2 (.struct [("RequestApiKey", .int16 (Int16.ofNat (Api.Metadata).protocolKey)),
        ("RequestApiVersion", .int16 9), ("CorrelationId", .int32 id), ("ClientId", .str (some b.config.clientID))]) = _ :=
      Msg.RequestHeader.conforms (v := 2) (by decide) (requestHeader (Int16.ofNat (Api.Metadata).protocolKey) 9 id b.config.clientID)
    have hw : written b .Metadata (metadataRequest []) id = _ := (call_emits b .Metadata (metadataRequest []) id).bytesOf
    have hb : version b .Metadata = b.apiVersion.get .Metadata := rfl
    rw [hw, ← hb, hv, Wire.frame, Wire.int32, List.drop_append_of_le_length (by rw [Protocol.bigEndian_length]; exact Nat.le_refl _),
      List.drop_of_length_le (by rw [Protocol.bigEndian_length]; exact Nat.le_refl _), List.nil_append, requestPayload,
      show Protocol.requestHeaderVersion .Metadata 9 = 2 from by decide, show flexible .Metadata 9 = true from by decide, hh, header_wire,
      Wire.requestPayload, show (Api.Metadata).reqLayout.wire 9 (metadataRequest []) = [0, 0, 0, 0, 0, 0, 0] from by decide,
      show (Protocol.Ty.struct (Protocol.request .Metadata)).wire true 9 (.struct [("Topics", .arr none),
        ("AllowAutoTopicCreation", .bool false), ("IncludeClusterAuthorizedOperations", .bool false),
        ("IncludeTopicAuthorizedOperations", .bool false)]) = [0, 0, 0, 0, 0] from by decide +kernel]
    simp only [List.append_assoc]
    rfl

end Kafka.Props
