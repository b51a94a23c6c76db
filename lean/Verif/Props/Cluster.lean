import Verif.Props.Session
import Verif.Props.Address
/-!
Property C67: with a cluster of brokers of the protocol, the client connects to the broker that leads a partition, to the
controller and to the coordinator of a group.

The specification is a cluster: its nodes, at their hosts and ports, which of them leads, controls and coordinates, and
what its nodes say in the terms of the protocol (Verif/Protocol).  Addresses are read as in C63.
-/
namespace Kafka.Props

open Kafka.Client Kafka.Msg
open Protocol (flexible requestFrame replyPayload Val)

/-- A broker of a cluster. -/
structure Node where
  id : Int32
  host : GoString
  port : Int32
  ranges : List Range

/-- A cluster. -/
structure Cluster where
  nodes : List Node
  /-- the node that leads a partition of a topic -/
  leader : GoString → Int32 → Option Int32
  controller : Int32
  /-- the coordinator of a group -/
  coordinator : GoString → Option Int32

/-- Nodes have different ids, none of them -1, and those that lead, control and coordinate are among the nodes. -/
structure Cluster.Ordered (cl : Cluster) : Prop where
  distinct : ∀ nd ∈ cl.nodes, ∀ nd' ∈ cl.nodes, nd.id = nd'.id → nd = nd'
  ids : ∀ nd ∈ cl.nodes, nd.id ≠ -1
  leaders : ∀ t i id, cl.leader t i = some id → ∃ nd ∈ cl.nodes, nd.id = id
  coordinators : ∀ g id, cl.coordinator g = some id → ∃ nd ∈ cl.nodes, nd.id = id

/-- The entry for a node in a Metadata reply. -/
def IsEntry (nd : Node) (b : Val) : Prop :=
  b.get "NodeId" = .int32 nd.id ∧ b.get "Host" = .str (some nd.host) ∧ b.get "Port" = .int32 nd.port

/-- The Metadata request names this topic. -/
def AsksFor (x : Val) (topic : GoString) : Prop :=
  ∃ ts t, x.get "Topics" = .arr (some ts) ∧ t ∈ ts ∧ t.get "Name" = .str (some topic)

/-- The entry for a topic in a Metadata reply: all its partitions that have leaders are listed; -1 stands for no leader. -/
def IsTopic (cl : Cluster) (topic : GoString) (t : Val) : Prop :=
  t.get "Name" = .str (some topic) ∧ ∃ ps, t.get "Partitions" = .arr (some ps) ∧
    (∀ p ∈ ps, ∃ i, p.get "PartitionIndex" = .int32 i ∧ p.get "LeaderId" = .int32 ((cl.leader topic i).getD (-1))) ∧
    ∀ i, cl.leader topic i ≠ none → ∃ p ∈ ps, p.get "PartitionIndex" = .int32 i

/-- The Metadata reply `y` at version `v` to the request `x` describes the cluster: all nodes, the controller (which is in
replies from version 1 on), and the topics asked for that have leaders. -/
structure Cluster.Describes (cl : Cluster) (v : Int16) (x y : Val) : Prop where
  brokers : ∃ bs, y.get "Brokers" = .arr (some bs) ∧ (∀ b ∈ bs, ∃ nd ∈ cl.nodes, IsEntry nd b) ∧
    ∀ nd ∈ cl.nodes, ∃ b ∈ bs, IsEntry nd b
  controller : 1 ≤ v → y.get "ControllerId" = .int32 cl.controller
  topics : ∃ ts, y.get "Topics" = .arr (some ts) ∧ (∀ t ∈ ts, ∃ topic, IsTopic cl topic t) ∧
    ∀ topic, AsksFor x topic → (∃ i, cl.leader topic i ≠ none) → ∃ t ∈ ts, IsTopic cl topic t

/-- The FindCoordinator reply `y` to the request `x` for the coordinator of a group: it names the coordinator, or says
COORDINATOR_NOT_AVAILABLE, as Kafka does. -/
def Cluster.Locates (cl : Cluster) (v : Int16) (x y : Val) : Prop :=
  ∀ group, x.get "Key" = .str (some group) → (1 ≤ v → x.get "KeyType" = .int8 0) →
    (∀ nd ∈ cl.nodes, cl.coordinator group = some nd.id → y.get "ErrorCode" = .int16 0 ∧ IsEntry nd y) ∧
    (cl.coordinator group = none → y.get "ErrorCode" = .int16 15 ∧ y.get "NodeId" = .int32 (-1) ∧
      y.get "Host" = .str (some []) ∧ y.get "Port" = .int32 (-1))

/-- The connection goes to the node. -/
def Reaches (tr : Trace) (n : Nat) (nd : Node) : Prop :=
  ∃ addr, (conns tr)[n]? = some addr ∧ Denotes addr nd.host nd.port

/-- The network is the cluster: its nodes accept connections at their addresses, and answer requests of the protocol for
versions, metadata and coordinators. -/
structure Cluster.Runs (cl : Cluster) (env : Env) : Prop where
  dials : ∀ tr addr, ∀ nd ∈ cl.nodes, Denotes addr nd.host nd.port → env.dial tr addr = none
  few : ∀ nd ∈ cl.nodes, nd.ranges.length < 2 ^ 31
  versions : ∀ tr n id client x, ∀ nd ∈ cl.nodes, Reaches tr n nd → (Protocol.request .ApiVersions).Valid true 0 x →
    ∃ stale, env.reply tr n (requestFrame .ApiVersions 0 id client x) =
        .frame ((replyPayload .ApiVersions 0 id (rangesReply nd.ranges)).drop 4) stale ∧
      ((replyPayload .ApiVersions 0 id (rangesReply nd.ranges)).drop 4 ++ stale).length < 2 ^ 31
  metadata : ∀ tr n v id client x, ∀ nd ∈ cl.nodes, Reaches tr n nd → Offers nd.ranges .Metadata v →
    (Protocol.request .Metadata).Valid true v x →
    ∃ y stale, env.reply tr n (requestFrame .Metadata v id client x) = .frame ((replyPayload .Metadata v id y).drop 4) stale ∧
      (Protocol.response .Metadata).Valid false v y ∧ ((replyPayload .Metadata v id y).drop 4 ++ stale).length < 2 ^ 31 ∧
      cl.Describes v x y
  coordinators : ∀ tr n v id client x, ∀ nd ∈ cl.nodes, Reaches tr n nd → Offers nd.ranges .FindCoordinator v →
    (Protocol.request .FindCoordinator).Valid true v x →
    ∃ y stale, env.reply tr n (requestFrame .FindCoordinator v id client x) =
        .frame ((replyPayload .FindCoordinator v id y).drop 4) stale ∧
      (Protocol.response .FindCoordinator).Valid false v y ∧
      ((replyPayload .FindCoordinator v id y).drop 4 ++ stale).length < 2 ^ 31 ∧ cl.Locates v x y

/-- The client knows the cluster: each of its addresses is that of a node or refuses connections, and one is that of a
node. -/
structure Knows (c : Client) (cl : Cluster) (env : Env) : Prop where
  each : ∀ addr ∈ c.bootstrap, (∃ nd ∈ cl.nodes, Denotes addr nd.host nd.port) ∨ ∀ tr, ∃ e, env.dial tr addr = some e
  some : ∃ addr ∈ c.bootstrap, ∃ nd ∈ cl.nodes, Denotes addr nd.host nd.port

/-- The call returned a broker connected to the node, with versions that it has. -/
def ConnectsTo (r : Out Handle × Trace) (nd : Node) : Prop :=
  ∃ h tr', r = (.ok h, tr') ∧ Reaches tr' h.conn nd ∧
    ∀ a, (∃ v, Offers nd.ranges a v) → Offers nd.ranges a (version h.broker a)

def IsError (r : Out Handle × Trace) : Prop := ∃ e tr', r = (.err e, tr')

/-- What is claimed of a client in a cluster. -/
structure Finds (c : Client) (cl : Cluster) (env : Env) (tr : Trace) : Prop where
  leader : ∀ topic i, topic.length ≤ 32767 → ∀ nd ∈ cl.nodes, cl.leader topic i = some nd.id →
    ConnectsTo (c.dialLeader topic i env tr) nd
  noLeader : ∀ topic i, topic.length ≤ 32767 → cl.leader topic i = none → IsError (c.dialLeader topic i env tr)
  controller : ∀ nd ∈ cl.nodes, cl.controller = nd.id → ConnectsTo (c.dialController env tr) nd
  coordinator : ∀ group, group.length ≤ 32767 → ∀ nd ∈ cl.nodes, cl.coordinator group = some nd.id →
    ConnectsTo (c.dialGroupCoordinator group env tr) nd
  noCoordinator : ∀ group, group.length ≤ 32767 → cl.coordinator group = none → IsError (c.dialGroupCoordinator group env tr)

/-- The versions of each node: in order, in common with the library, with Metadata and FindCoordinator. -/
def Cluster.Shared (cl : Cluster) : Prop :=
  ∀ nd ∈ cl.nodes, Compatible nd.ranges ∧ (∃ v, Offers nd.ranges .Metadata v) ∧ ∃ v, Offers nd.ranges .FindCoordinator v

/-- Hosts are without brackets. -/
def Cluster.Hosts (cl : Cluster) : Prop := ∀ nd ∈ cl.nodes, 0x5b ∉ nd.host ∧ 0x5d ∉ nd.host

/-- The full claim: a client that knows a cluster of brokers of the protocol that have versions in common with the library
finds leaders, controller and coordinators. -/
def C67_statement : Prop :=
  ∀ (cl : Cluster) (env : Env) (c : Client) (tr : Trace), cl.Ordered → cl.Runs env → Knows c cl env → cl.Shared → cl.Hosts →
    dialMode (buildConfig c.opts) ≠ .nilDialer → Finds c cl env tr

/-! ### Connecting to a node -/

/-- The library knows the node's highest versions, and those of Metadata and FindCoordinator are not flexible. -/
def Node.Plain (nd : Node) : Prop :=
  (∀ r ∈ nd.ranges, ∀ a : Api, r.key.toInt = a.protocolKey → r.hi.toInt ≤ a.protocolMax) ∧
  ∀ r ∈ nd.ranges, (r.key.toInt = (Api.Metadata).protocolKey → flexible .Metadata r.hi = false) ∧
    (r.key.toInt = (Api.FindCoordinator).protocolKey → flexible .FindCoordinator r.hi = false)

/-- The versions are the highest the node has named last. -/
def UsesHighest (nd : Node) (h : Handle) : Prop :=
  ∀ a, (∃ v, Offers nd.ranges a v) → ∃ r ∈ nd.ranges, r.key.toInt = a.protocolKey ∧ version h.broker a = r.hi

theorem UsesHighest.offers {nd : Node} {h : Handle} (hu : UsesHighest nd h) (hc : Compatible nd.ranges) (a : Api)
    (ha : ∃ v, Offers nd.ranges a v) : Offers nd.ranges a (version h.broker a) := by
  obtain ⟨r, hr, hk, hv⟩ := hu a ha
  exact ⟨r, hr, hk, by rw [hv]; exact (hc r hr).2.1, by rw [hv]; exact Int16.le_refl _⟩

theorem Cluster.Runs.connects {cl : Cluster} {env : Env} (hr : cl.Runs env) {nd : Node} (hnd : nd ∈ cl.nodes)
    (hcomp : Compatible nd.ranges) (hp : nd.Plain) {addr : GoString} (ha : Denotes addr nd.host nd.port) {opts : List Opt}
    (hm : dialMode (buildConfig opts) ≠ .nilDialer) (tr : Trace) :
    ∃ h tr', newBroker addr opts env tr = (.ok h, tr') ∧ Reaches tr' h.conn nd ∧ UsesHighest nd h := by
  obtain ⟨av, hn⟩ := C22_list_partial (some (nd.ranges.map Range.entry)) (by
    intro k hk a ha
    simp only [Slice.elems, Option.getD_some, List.mem_map] at hk
    obtain ⟨r, hr, rfl⟩ := hk
    obtain ⟨h0, h1, _⟩ := hcomp r hr
    have h2 := hp.1 r hr a ha
    rw [Int16.le_iff_toInt_le] at h0 h1
    have e0 : (0 : Int16).toInt = 0 := rfl
    exact ⟨h2, r.hi, h1, Int.le_refl _, by omega, h2⟩)
  have hc : connect addr opts env tr = (.ok tr.dialed, tr ++ [.dial addr (dialMode (buildConfig opts)) none]) := by
    unfold connect
    split
    · rename_i hn; exact absurd hn hm
    · rw [hr.dials tr addr nd hnd ha]
  have hreach : Reaches (tr ++ [Event.dial addr (dialMode (buildConfig opts)) none]) tr.dialed nd := by
    refine ⟨addr, ?_, ha⟩
    rw [dialed_conns, conns_append]
    show (conns tr ++ [addr])[(conns tr).length]? = some addr
    simp
  obtain ⟨x, hx⟩ : ∃ x, x = tr ++ [Event.dial addr (dialMode (buildConfig opts)) none] := ⟨_, rfl⟩
  rw [← hx] at hc hreach
  let b : Broker := { config := buildConfig opts }
  have hw := C47_partial b .ApiVersions ({} : ApiVersionsRequest) (Int32.ofNat (x.sent tr.dialed + 1))
    (show (0 : Int16) ≤ 0 by decide) ⟨by simp [FitsString], by simp [FitsString]⟩
    (show flexible .ApiVersions 0 = false by decide) (by simp) (by simp) trivial
  obtain ⟨stale, hrep, hl⟩ := hr.versions x tr.dialed (Int32.ofNat (x.sent tr.dialed + 1)) b.config.clientID _ nd hnd hreach hw.1
  have hrd := Api.resp_decodes .ApiVersions 0 (by decide) (by simp) _ (rangesReply_valid (hr.few nd hnd))
  rw [← reply_drop (by decide) (Int32.ofNat (x.sent tr.dialed + 1))] at hrd
  have hdo := doCall_reads (conn := tr.dialed) (call := Broker.apiVersions b {}) (env := env) (tr := x)
    ((congrArg (env.reply x tr.dialed) hw.2).trans hrep) hrd hl
  generalize x ++ [Event.request _ _ _] = tr2 at hdo
  have hn' := hn
  rw [← rangesReply_of] at hn'
  have hn'' := ((negotiateFuel_exact _).1 _).2 hn'
  have e : newBroker addr opts env tr = (.ok ⟨{ config := buildConfig opts, apiVersion := av }, tr.dialed⟩, tr2) := by
    unfold newBroker
    have hdo' : doCall tr.dialed (Broker.apiVersions { config := buildConfig opts } {}) env x = _ := hdo
    simp only [M.bind, M.wrap, hc, hdo', hn'']
  exact ⟨_, tr2, e, ⟨addr, (newBroker_conn e).2, ha⟩, fun a ha => offered hn ha⟩

theorem refused {env : Env} {opts : List Opt} {addr : GoString} {tr : Trace} {e : NetErr} (hd : env.dial tr addr = some e)
    (hm : dialMode (buildConfig opts) ≠ .nilDialer) : ∃ e' tr', newBroker addr opts env tr = (.err e', tr') := by
  have hc : connect addr opts env tr = (.err (.wrap (.dial addr) (.net e)), tr ++ [.dial addr (dialMode (buildConfig opts)) (some e)]) := by
    unfold connect
    split
    · rename_i hn; exact absurd hn hm
    · rw [hd]
  refine ⟨.wrap (.dial addr) (.net e), tr ++ [.dial addr (dialMode (buildConfig opts)) (some e)], ?_⟩
  unfold newBroker
  simp only [M.bind, hc]

/-- The client reaches a node of the cluster. -/
theorem Knows.first {c : Client} {cl : Cluster} {env : Env} (hk : Knows c cl env) (hr : cl.Runs env) (hcomp : cl.Shared)
    (hp : ∀ nd ∈ cl.nodes, nd.Plain) (hm : dialMode (buildConfig c.opts) ≠ .nilDialer) (tr : Trace) :
    ∃ h tr1, FirstUp env c.opts tr c.bootstrap h tr1 ∧ ∃ nd ∈ cl.nodes, Reaches tr1 h.conn nd ∧ UsesHighest nd h := by
  obtain ⟨each, some⟩ := hk
  generalize c.bootstrap = addrs at each some ⊢
  induction addrs generalizing tr with
  | nil => obtain ⟨_, h, _⟩ := some; cases h
  | cons addr addrs ih =>
    rcases each addr (by simp) with ⟨nd, hnd, ha⟩ | hd
    · obtain ⟨h, tr1, e, h1, h2⟩ := hr.connects hnd (hcomp nd hnd).1 (hp nd hnd) ha hm tr
      exact ⟨h, tr1, .here e, nd, hnd, h1, h2⟩
    · obtain ⟨e, he⟩ := hd tr
      obtain ⟨e', tr', hb⟩ := refused (opts := c.opts) he hm
      obtain ⟨h, tr1, h1, h2⟩ := ih tr' (fun a ha => each a (List.mem_cons_of_mem _ ha)) (by
        obtain ⟨a, ha, nd, hnd, hden⟩ := some
        rcases List.mem_cons.1 ha with rfl | ha
        · rw [hr.dials tr _ nd hnd hden] at he; cases he
        · exact ⟨a, ha, nd, hnd, hden⟩)
      exact ⟨h, tr1, .skip hb h1, h2⟩

/-! ### What the nodes say -/

/-- A call to which the node replies with `y` returns what is in `y`. -/
theorem replied {env : Env} {h : Handle} {a : Api} {req : a.req.T} {tr : Trace} {y : Val} {stale : List Byte}
    (hv0 : 0 ≤ version h.broker a) (hflex : flexible a (version h.broker a) = false)
    (hw : written h.broker a req (Int32.ofNat (tr.sent h.conn + 1)) =
      requestFrame a (version h.broker a) (Int32.ofNat (tr.sent h.conn + 1)) h.broker.config.clientID (a.reqVal req))
    (hrep : env.reply tr h.conn (requestFrame a (version h.broker a) (Int32.ofNat (tr.sent h.conn + 1)) h.broker.config.clientID
      (a.reqVal req)) = .frame ((replyPayload a (version h.broker a) (Int32.ofNat (tr.sent h.conn + 1)) y).drop 4) stale)
    (hy : (Protocol.response a).Valid false (version h.broker a) y)
    (hl : ((replyPayload a (version h.broker a) (Int32.ofNat (tr.sent h.conn + 1)) y).drop 4 ++ stale).length < 2 ^ 31)
    (hct : a = .CreateTopics → version h.broker a < 5) :
    ∃ tr', doCall h.conn (h.broker.call a req) env tr = (.ok (a.respOf (version h.broker a) y), tr') := by
  have hrd := a.resp_decodes _ hv0 hct y hy
  rw [← reply_drop hflex (Int32.ofNat (tr.sent h.conn + 1))] at hrd
  have hdo := doCall_reads (conn := h.conn) (call := h.broker.call a req) (env := env) (tr := tr)
    (by rw [← hrep]; exact congrArg _ hw) (by rw [C19_response]; exact hrd) hl
  exact ⟨_, hdo⟩

theorem Cluster.Runs.tells {c : Client} {cl : Cluster} {env : Env} (hr : cl.Runs env) (hk : Knows c cl env) (hcomp : cl.Shared)
    (hp : ∀ nd ∈ cl.nodes, nd.Plain) (hm : dialMode (buildConfig c.opts) ≠ .nilDialer) (topics : List GoString)
    (ht : topics.length < 2 ^ 31) (hl : ∀ t ∈ topics, t.length ≤ 32767) (tr : Trace) :
    ∃ v y tr1, 0 ≤ v ∧ (∃ nd ∈ cl.nodes, ∃ r ∈ nd.ranges, r.key.toInt = (Api.Metadata).protocolKey ∧ r.hi = v) ∧
      c.metadata topics env tr = (.ok (MetadataResponse.of v y {}), tr1) ∧
      cl.Describes v (MetadataRequest.val (metadataRequest topics)) y := by
  obtain ⟨h, tr1, hf, nd, hnd, hreach, hu⟩ := hk.first hr hcomp hp hm tr
  obtain ⟨hc, hmeta, _⟩ := hcomp nd hnd
  obtain ⟨r, hr', hkey, hv⟩ := hu _ hmeta
  obtain ⟨h0, h1, _⟩ := hc r hr'
  have hv0 : 0 ≤ version h.broker .Metadata := by rw [hv]; exact Int16.le_trans h0 h1
  have hflex : flexible .Metadata (version h.broker .Metadata) = false := by rw [hv]; exact ((hp nd hnd).2 r hr').1 hkey
  have hw := C47_partial h.broker .Metadata (metadataRequest topics) (Int32.ofNat (tr1.sent h.conn + 1)) hv0
    (by
      refine ⟨?_⟩
      unfold metadataRequest
      split
      · simp [FitsAll, FitsSlice, Slice.len, Slice.elems]
      · refine ⟨?_, ?_⟩
        · simp [FitsSlice, Slice.len, Slice.elems]; omega
        · intro t hm
          simp only [Slice.elems, Option.getD_some, List.mem_map] at hm
          obtain ⟨s, hs, rfl⟩ := hm
          exact ⟨by have := hl s hs; simp [FitsString]; omega⟩) hflex (by simp) (by simp) trivial
  obtain ⟨y, stale, hrep, hy, hlen, hd⟩ := hr.metadata tr1 h.conn _ (Int32.ofNat (tr1.sent h.conn + 1)) h.broker.config.clientID _
    nd hnd hreach (hu.offers hc _ hmeta) hw.1
  obtain ⟨tr2, e⟩ := replied hv0 hflex hw.2 hrep hy hlen (by simp)
  exact ⟨_, y, tr2, hv0, ⟨nd, hnd, r, hr', hkey, hv.symm⟩, (C39_metadata hf topics).trans e, hd⟩

theorem Cluster.Runs.locates {c : Client} {cl : Cluster} {env : Env} (hr : cl.Runs env) (hk : Knows c cl env) (hcomp : cl.Shared)
    (hp : ∀ nd ∈ cl.nodes, nd.Plain) (hm : dialMode (buildConfig c.opts) ≠ .nilDialer) (group : GoString)
    (hl : group.length ≤ 32767) (tr : Trace) :
    ∃ v y tr1, c.dialGroupCoordinator group env tr =
        newBroker (hostPort (FindCoordinatorResponse.of v y {}).Host (FindCoordinatorResponse.of v y {}).Port) c.opts env tr1 ∧
      cl.Locates v (FindCoordinatorRequest.val { Key := group, KeyType := 0 }) y := by
  obtain ⟨h, tr1, hf, nd, hnd, hreach, hu⟩ := hk.first hr hcomp hp hm tr
  obtain ⟨hc, _, hfind⟩ := hcomp nd hnd
  obtain ⟨r, hr', hkey, hv⟩ := hu _ hfind
  obtain ⟨h0, h1, _⟩ := hc r hr'
  have hv0 : 0 ≤ version h.broker .FindCoordinator := by rw [hv]; exact Int16.le_trans h0 h1
  have hflex : flexible .FindCoordinator (version h.broker .FindCoordinator) = false := by
    rw [hv]; exact ((hp nd hnd).2 r hr').2 hkey
  have hw := C47_partial h.broker .FindCoordinator ({ Key := group, KeyType := 0 } : FindCoordinatorRequest)
    (Int32.ofNat (tr1.sent h.conn + 1)) hv0 ⟨by simp [FitsString]; omega⟩ hflex (by simp) (by simp) trivial
  obtain ⟨y, stale, hrep, hy, hlen, hd⟩ := hr.coordinators tr1 h.conn _ (Int32.ofNat (tr1.sent h.conn + 1))
    h.broker.config.clientID _ nd hnd hreach (hu.offers hc _ hfind) hw.1
  obtain ⟨tr2, e⟩ := replied hv0 hflex hw.2 hrep hy hlen (by simp)
  exact ⟨_, y, tr2, C40_coordinator_partial hf e, hd⟩

theorem exists_find {α : Type} {l : List α} {q : α → Bool} (h : ∃ a ∈ l, q a = true) : ∃ a ∈ l, l.find? q = some a ∧ q a = true := by
  cases e : l.find? q with
  | none =>
    obtain ⟨a, ha, hq⟩ := h
    exact absurd hq (List.find?_eq_none.1 e a ha)
  | some a => exact ⟨a, List.mem_of_find?_eq_some e, rfl, List.find?_some e⟩

theorem elems_of {α : Type} {g : Val → α} {y : Val} {l : List Val} (h : y = .arr (some l)) :
    (Val.toSliceOr g none y).elems = l.map g := by
  subst h
  rfl

/-- The node with the id is dialled. -/
theorem Cluster.Describes.dials {cl : Cluster} (ho : cl.Ordered) {v : Int16} {x y : Val} (hd : cl.Describes v x y) (c : Client)
    {nd : Node} (hnd : nd ∈ cl.nodes) :
    c.dialNode (MetadataResponse.of v y {}) nd.id = newBroker (hostPort nd.host nd.port) c.opts := by
  obtain ⟨bs, e, h1, h2⟩ := hd.brokers
  have he : (MetadataResponse.of v y {}).Brokers.elems = bs.map (fun y => MetadataResponseBroker3.of v y {}) := elems_of e
  obtain ⟨b, hb, hf, hq⟩ := exists_find (l := (MetadataResponse.of v y {}).Brokers.elems) (q := fun b => b.NodeId == nd.id) (by
    obtain ⟨b, hb, hi, _⟩ := h2 nd hnd
    refine ⟨_, by rw [he]; exact List.mem_map.2 ⟨b, hb, rfl⟩, ?_⟩
    rw [beq_iff_eq]
    show (b.get "NodeId").toInt32 = _
    rw [hi]; rfl)
  unfold Client.dialNode
  rw [hf]
  dsimp only
  rw [he] at hb
  obtain ⟨b', hb', rfl⟩ := List.mem_map.1 hb
  obtain ⟨nd', hnd', hi, hh, hpt⟩ := h1 b' hb'
  rw [beq_iff_eq] at hq
  have hq' : (b'.get "NodeId").toInt32 = nd.id := hq
  rw [hi] at hq'
  obtain rfl := ho.distinct _ hnd' _ hnd hq'
  have eh : (MetadataResponseBroker3.of v b' {}).Host = nd'.host := by
    show (b'.get "Host").toStr = _
    rw [hh]; rfl
  have ep : (MetadataResponseBroker3.of v b' {}).Port = nd'.port := by
    show (b'.get "Port").toInt32 = _
    rw [hpt]; rfl
  rw [eh, ep]

/-- The partition, if the topic is found and lists it, has the leader the cluster has. -/
theorem Cluster.Describes.partition {cl : Cluster} {v : Int16} {x y : Val} (hd : cl.Describes v x y) {topic : GoString}
    {t : MetadataResponseTopic3} (ht : t ∈ (MetadataResponse.of v y {}).Topics.elems) (hn : t.Name = topic) (i : Int32) :
    (∀ p ∈ t.Partitions.elems, p.PartitionIndex = i → p.LeaderId = (cl.leader topic i).getD (-1)) ∧
    (cl.leader topic i ≠ none → ∃ p ∈ t.Partitions.elems, p.PartitionIndex = i) := by
  obtain ⟨ts, e, h1, _⟩ := hd.topics
  have he : (MetadataResponse.of v y {}).Topics.elems = ts.map (fun y => MetadataResponseTopic3.of v y {}) := elems_of e
  rw [he] at ht
  obtain ⟨t', ht', rfl⟩ := List.mem_map.1 ht
  obtain ⟨topic', hname, ps, eps, hps, hall⟩ := h1 t' ht'
  have hn' : (t'.get "Name").toStr = topic := hn
  rw [hname] at hn'
  have hn'' : topic' = topic := hn'
  subst hn''
  have hp : (MetadataResponseTopic3.of v t' {}).Partitions.elems = ps.map (fun y => MetadataResponsePartition3.of v y {}) :=
    elems_of eps
  rw [hp]
  refine ⟨?_, fun hl => ?_⟩
  · intro p hp' hi
    obtain ⟨q, hq, rfl⟩ := List.mem_map.1 hp'
    obtain ⟨j, hj, hlead⟩ := hps q hq
    have hi' : (q.get "PartitionIndex").toInt32 = i := hi
    rw [hj] at hi'
    have hi'' : j = i := hi'
    subst hi''
    show (q.get "LeaderId").toInt32 = _
    rw [hlead]; rfl
  · obtain ⟨q, hq, hj⟩ := hall i hl
    refine ⟨_, List.mem_map.2 ⟨q, hq, rfl⟩, ?_⟩
    show (q.get "PartitionIndex").toInt32 = i
    rw [hj]; rfl

theorem asks (topic : GoString) : AsksFor (MetadataRequest.val (metadataRequest [topic])) topic :=
  ⟨[MetadataRequestTopic3.val { Name := topic }], _, rfl, List.mem_singleton.2 rfl, rfl⟩

/-- What `DialLeader` does with the metadata of the cluster. -/
theorem Cluster.Describes.leads {cl : Cluster} (ho : cl.Ordered) {v : Int16} {y : Val} {topic : GoString}
    (hd : cl.Describes v (MetadataRequest.val (metadataRequest [topic])) y) {c : Client} {env : Env} {tr tr1 : Trace}
    (hm : c.metadata [topic] env tr = (.ok (MetadataResponse.of v y {}), tr1)) (i : Int32) :
    (∀ nd ∈ cl.nodes, cl.leader topic i = some nd.id →
      c.dialLeader topic i env tr = newBroker (hostPort nd.host nd.port) c.opts env tr1) ∧
    (cl.leader topic i = none → IsError (c.dialLeader topic i env tr)) := by
  refine ⟨fun nd hnd hl => ?_, fun hl => ?_⟩
  · obtain ⟨t, ht, hft, hqt⟩ := exists_find (l := (MetadataResponse.of v y {}).Topics.elems) (q := fun t => t.Name == topic) (by
      obtain ⟨ts, e, h1, h2⟩ := hd.topics
      obtain ⟨t, ht, hname, _⟩ := h2 topic (asks topic) ⟨i, by rw [hl]; simp⟩
      have he : (MetadataResponse.of v y {}).Topics.elems = ts.map (fun y => MetadataResponseTopic3.of v y {}) := elems_of e
      refine ⟨_, by rw [he]; exact List.mem_map.2 ⟨t, ht, rfl⟩, ?_⟩
      rw [beq_iff_eq]
      show (t.get "Name").toStr = _
      rw [hname]; rfl)
    rw [beq_iff_eq] at hqt
    obtain ⟨h1, h2⟩ := hd.partition ht hqt i
    obtain ⟨p, hp, hfp, hqp⟩ := exists_find (l := t.Partitions.elems) (q := fun p => p.PartitionIndex == i) (by
      obtain ⟨p, hp, hi⟩ := h2 (by rw [hl]; simp)
      exact ⟨p, hp, by rw [beq_iff_eq]; exact hi⟩)
    rw [beq_iff_eq] at hqp
    have hlead := h1 p hp hqp
    rw [hl, Option.getD_some] at hlead
    unfold Client.dialLeader
    simp only [M.bind, hm]
    have e1 : findTopic (MetadataResponse.of v y {}) topic = .ok t := by unfold findTopic; rw [hft]
    have e2 : findPartition t i = .ok p := by unfold findPartition; rw [hfp]
    simp only [e1, e2, hlead]
    rw [hd.dials ho c hnd]
  · rcases C40_leader (partition := i) hm with ⟨host, port, ⟨t, ht, hn, p, hp, hi, b, hb, hid, _⟩, _⟩ | ⟨e, h⟩
    · have hlead := (hd.partition ht hn i).1 p hp hi
      rw [hl, Option.getD_none] at hlead
      obtain ⟨bs, e, h1, h2⟩ := hd.brokers
      have he : (MetadataResponse.of v y {}).Brokers.elems = bs.map (fun y => MetadataResponseBroker3.of v y {}) := elems_of e
      rw [he] at hb
      obtain ⟨b', hb', rfl⟩ := List.mem_map.1 hb
      obtain ⟨nd', hnd', hi', _⟩ := h1 b' hb'
      have hq' : (b'.get "NodeId").toInt32 = p.LeaderId := hid
      rw [hi', hlead] at hq'
      exact absurd hq' (ho.ids nd' hnd')
    · exact ⟨e, tr1, h⟩

/-- What `DialController` does with the metadata of the cluster, from version 1 on. -/
theorem Cluster.Describes.controls {cl : Cluster} (ho : cl.Ordered) {v : Int16} (hv : 1 ≤ v) {y : Val}
    (hd : cl.Describes v (MetadataRequest.val (metadataRequest [])) y) {c : Client} {env : Env} {tr tr1 : Trace}
    (hm : c.metadata [] env tr = (.ok (MetadataResponse.of v y {}), tr1)) {nd : Node} (hnd : nd ∈ cl.nodes)
    (hc : cl.controller = nd.id) : c.dialController env tr = newBroker (hostPort nd.host nd.port) c.opts env tr1 := by
  unfold Client.dialController
  simp only [M.bind, hm]
  have : (MetadataResponse.of v y {}).ControllerId = nd.id := by
    show (if v ≥ 1 then (y.get "ControllerId").toInt32 else _) = _
    rw [if_pos hv, hd.controller hv, ← hc]; rfl
  rw [this, hd.dials ho c hnd]

/-! ### The property -/

/-- The claim holds for clusters whose nodes' highest versions the library knows, with Metadata and FindCoordinator not
flexible and Metadata beyond version 0; whose hosts have no colons; and with a network that refuses connections to
":-1".  Missing are the others: the library cannot agree with newer brokers (`C62_newer_fails`), flexible versions are
not sent as the protocol says (`C62_flexible_fails`), version 0 of Metadata has no controller (`C40_controller_fails`),
addresses with colons are not what is dialled (`C67_ipv6_fails`), and the error codes of replies are ignored (`C40_coordinator_fails`). -/
theorem C67_partial {cl : Cluster} {env : Env} {c : Client} (ho : cl.Ordered) (hr : cl.Runs env) (hk : Knows c cl env)
    (hcomp : cl.Shared) (hh : cl.Hosts) (hm : dialMode (buildConfig c.opts) ≠ .nilDialer)
    (hp : ∀ nd ∈ cl.nodes, nd.Plain)
    (hone : ∀ nd ∈ cl.nodes, ∀ r ∈ nd.ranges, r.key.toInt = (Api.Metadata).protocolKey → 1 ≤ r.hi)
    (hcolon : ∀ nd ∈ cl.nodes, 0x3a ∉ nd.host) (hnone : ∀ tr, ∃ e, env.dial tr (hostPort [] (-1)) = some e) (tr : Trace) :
    Finds c cl env tr := by
  have conn : ∀ nd ∈ cl.nodes, ∀ tr1, ConnectsTo (newBroker (hostPort nd.host nd.port) c.opts env tr1) nd := by
    intro nd hnd tr1
    obtain ⟨h, tr', e, h1, h2⟩ := hr.connects hnd (hcomp nd hnd).1 (hp nd hnd)
      ((C63_exact nd.host nd.port).2 ⟨hcolon nd hnd, hh nd hnd⟩) hm tr1
    exact ⟨h, tr', e, h1, fun a ha => h2.offers (hcomp nd hnd).1 a ha⟩
  refine ⟨?_, ?_, ?_, ?_, ?_⟩
  · intro topic i hl nd hnd hlead
    obtain ⟨v, y, tr1, _, _, e, hd⟩ := hr.tells hk hcomp hp hm [topic] (by simp) (by simpa using hl) tr
    rw [(hd.leads ho e i).1 nd hnd hlead]
    exact conn nd hnd tr1
  · intro topic i hl hlead
    obtain ⟨v, y, tr1, _, _, e, hd⟩ := hr.tells hk hcomp hp hm [topic] (by simp) (by simpa using hl) tr
    exact (hd.leads ho e i).2 hlead
  · intro nd hnd hc
    obtain ⟨v, y, tr1, _, ⟨nd', hnd', r, hr', hkey, rfl⟩, e, hd⟩ := hr.tells hk hcomp hp hm [] (by simp) (by simp) tr
    rw [hd.controls ho (hone nd' hnd' r hr' hkey) e hnd hc]
    exact conn nd hnd tr1
  · intro group hl nd hnd hc
    obtain ⟨v, y, tr1, e, hd⟩ := hr.locates hk hcomp hp hm group hl tr
    obtain ⟨_, _, h1, h2⟩ := (hd group rfl (fun _ => rfl)).1 nd hnd hc
    have eh : (FindCoordinatorResponse.of v y {}).Host = nd.host := by
      show (y.get "Host").toStr = _
      rw [h1]; rfl
    have ep : (FindCoordinatorResponse.of v y {}).Port = nd.port := by
      show (y.get "Port").toInt32 = _
      rw [h2]; rfl
    rw [e, eh, ep]
    exact conn nd hnd tr1
  · intro group hl hc
    obtain ⟨v, y, tr1, e, hd⟩ := hr.locates hk hcomp hp hm group hl tr
    obtain ⟨_, _, h1, h2⟩ := (hd group rfl (fun _ => rfl)).2 hc
    have eh : (FindCoordinatorResponse.of v y {}).Host = [] := by
      show (y.get "Host").toStr = _
      rw [h1]; rfl
    have ep : (FindCoordinatorResponse.of v y {}).Port = -1 := by
      show (y.get "Port").toInt32 = _
      rw [h2]; rfl
    rw [e, eh, ep]
    obtain ⟨x, hx⟩ := hnone tr1
    obtain ⟨e', tr', hb⟩ := refused (opts := c.opts) hx hm
    exact ⟨e', tr', hb⟩

/-- A node whose host has a colon is never connected to: not as leader, not as controller, not as coordinator. -/
theorem C67_ipv6_fails {cl : Cluster} {env : Env} {c : Client} (ho : cl.Ordered) (hr : cl.Runs env) (hk : Knows c cl env)
    (hcomp : cl.Shared) (hm : dialMode (buildConfig c.opts) ≠ .nilDialer) (hp : ∀ nd ∈ cl.nodes, nd.Plain)
    (hone : ∀ nd ∈ cl.nodes, ∀ r ∈ nd.ranges, r.key.toInt = (Api.Metadata).protocolKey → 1 ≤ r.hi)
    {nd : Node} (hnd : nd ∈ cl.nodes) (hcolon : 0x3a ∈ nd.host) (tr : Trace) :
    (∀ topic i, topic.length ≤ 32767 → cl.leader topic i = some nd.id → ¬ConnectsTo (c.dialLeader topic i env tr) nd) ∧
    (cl.controller = nd.id → ¬ConnectsTo (c.dialController env tr) nd) ∧
    ∀ group, group.length ≤ 32767 → cl.coordinator group = some nd.id → ¬ConnectsTo (c.dialGroupCoordinator group env tr) nd := by
  have conn : ∀ tr1, ¬ConnectsTo (newBroker (hostPort nd.host nd.port) c.opts env tr1) nd := by
    rintro tr1 ⟨h, tr', e, ⟨addr, ha, hden⟩, _⟩
    have := (newBroker_conn e).2
    rw [ha] at this
    cases this
    exact ((C63_exact _ _).1 hden).1 hcolon
  refine ⟨fun topic i hl hlead => ?_, fun hc => ?_, fun group hl hc => ?_⟩
  · obtain ⟨v, y, tr1, _, _, e, hd⟩ := hr.tells hk hcomp hp hm [topic] (by simp) (by simpa using hl) tr
    rw [(hd.leads ho e i).1 nd hnd hlead]
    exact conn tr1
  · obtain ⟨v, y, tr1, _, ⟨nd', hnd', r, hr', hkey, rfl⟩, e, hd⟩ := hr.tells hk hcomp hp hm [] (by simp) (by simp) tr
    rw [hd.controls ho (hone nd' hnd' r hr' hkey) e hnd hc]
    exact conn tr1
  · obtain ⟨v, y, tr1, e, hd⟩ := hr.locates hk hcomp hp hm group hl tr
    obtain ⟨_, _, h1, h2⟩ := (hd group rfl (fun _ => rfl)).1 nd hnd hc
    have eh : (FindCoordinatorResponse.of v y {}).Host = nd.host := by
      show (y.get "Host").toStr = _
      rw [h1]; rfl
    have ep : (FindCoordinatorResponse.of v y {}).Port = nd.port := by
      show (y.get "Port").toInt32 = _
      rw [h2]; rfl
    rw [e, eh, ep]
    exact conn tr1

/-! ### A cluster -/

/-- Two nodes; the second, at "b" or at "::1", leads partition 0 of topic "t", is the controller and coordinates all groups. -/
def sampleCluster (six : Bool) : Cluster where
  nodes := [⟨1, goString "a", 9092, [⟨3, 0, 1⟩, ⟨10, 0, 0⟩]⟩, ⟨2, goString (if six then "::1" else "b"), 9092, [⟨3, 0, 1⟩, ⟨10, 0, 0⟩]⟩]
  leader t i := if t = goString "t" ∧ i = 0 then some 2 else none
  controller := 2
  coordinator _ := some 2

def sampleEntry (nd : Node) : Val :=
  .struct [("ErrorCode", .int16 0), ("NodeId", .int32 nd.id), ("Host", .str (some nd.host)), ("Port", .int32 nd.port),
    ("Rack", .str (some []))]

/-- What its nodes answer. -/
def clusterAnswer (six : Bool) : Api → Val
  | .ApiVersions => rangesReply [⟨3, 0, 1⟩, ⟨10, 0, 0⟩]
  | .Metadata => .struct [("Brokers", .arr (some ((sampleCluster six).nodes.map sampleEntry))), ("ControllerId", .int32 2),
      ("Topics", .arr (some [.struct [("ErrorCode", .int16 0), ("Name", .str (some (goString "t"))), ("IsInternal", .bool false),
        ("Partitions", .arr (some [.struct [("ErrorCode", .int16 0), ("PartitionIndex", .int32 0), ("LeaderId", .int32 2),
          ("ReplicaNodes", .arr (some [.int32 2])), ("IsrNodes", .arr (some [.int32 2]))]]))]]))]
  | .FindCoordinator => sampleEntry ⟨2, goString (if six then "::1" else "b"), 9092, []⟩
  | _ => .struct []

open Classical in
noncomputable def clusterNet (six : Bool) : Env where
  dial _ addr := if addr = hostPort [] (-1) then some ⟨0⟩ else none
  reply _ _ bytes :=
    if h : ∃ p : Api × Int16, ∃ id c x, bytes = requestFrame p.1 p.2 id c x then
      .frame ((replyPayload h.choose.1 h.choose.2 0 (clusterAnswer six h.choose.1)).drop 4) []
    else .never

theorem clusterNet_reply (six : Bool) (tr : Trace) (n : Nat) (a : Api) (v : Int16) (id : Int32) (c : GoString) (x : Val) :
    (clusterNet six).reply tr n (requestFrame a v id c x) = .frame ((replyPayload a v id (clusterAnswer six a)).drop 4) [] := by
  have h : ∃ p : Api × Int16, ∃ id' c' x', requestFrame a v id c x = requestFrame p.1 p.2 id' c' x' := ⟨(a, v), id, c, x, rfl⟩
  have e : (clusterNet six).reply tr n (requestFrame a v id c x) =
      .frame ((replyPayload h.choose.1 h.choose.2 0 (clusterAnswer six h.choose.1)).drop 4) [] := dif_pos h
  obtain ⟨id', c', x', h1⟩ := h.choose_spec
  obtain ⟨h2, h3⟩ := frame_tells h1
  rw [e, ← h2, ← h3, replyPayload_drop a v 0 id]

theorem sample_metadata {v : Int16} (h : Offers [⟨3, 0, 1⟩, ⟨10, 0, 0⟩] .Metadata v) : v = 0 ∨ v = 1 := by
  obtain ⟨r, hr, hk, h1, h2⟩ := h
  rcases List.mem_cons.1 hr with rfl | hr
  · rw [Int16.le_iff_toInt_le] at h1 h2
    have e0 : (0 : Int16).toInt = 0 := rfl
    have e1 : (1 : Int16).toInt = 1 := rfl
    rw [e0] at h1
    rw [e1] at h2
    rcases (by omega : v.toInt = 0 ∨ v.toInt = 1) with e | e
    · exact .inl (Int16.toInt_inj.1 e)
    · exact .inr (Int16.toInt_inj.1 e)
  · rcases List.mem_cons.1 hr with rfl | hr
    · exact absurd hk (by decide)
    · cases hr

theorem sample_coordinator {v : Int16} (h : Offers [⟨3, 0, 1⟩, ⟨10, 0, 0⟩] .FindCoordinator v) : v = 0 := by
  obtain ⟨r, hr, hk, h1, h2⟩ := h
  rcases List.mem_cons.1 hr with rfl | hr
  · exact absurd hk (by decide)
  · rcases List.mem_cons.1 hr with rfl | hr
    · exact Int16.le_antisymm h2 h1
    · cases hr

theorem sampleCluster_ordered (six : Bool) : (sampleCluster six).Ordered := by
  refine ⟨?_, ?_, ?_, ?_⟩
  · intro nd h nd' h' e
    simp only [sampleCluster, List.mem_cons, List.not_mem_nil, or_false] at h h'
    rcases h with rfl | rfl <;> rcases h' with rfl | rfl
    · rfl
    · revert e; simp
    · revert e; simp
    · rfl
  · intro nd h
    simp only [sampleCluster, List.mem_cons, List.not_mem_nil, or_false] at h
    rcases h with rfl | rfl <;> cases six <;> decide
  · intro t i id h
    simp only [sampleCluster] at h
    split at h
    · cases h; exact ⟨_, List.mem_cons_of_mem _ (List.mem_singleton.2 rfl), rfl⟩
    · cases h
  · intro g id h
    simp only [sampleCluster] at h
    cases h; exact ⟨_, List.mem_cons_of_mem _ (List.mem_singleton.2 rfl), rfl⟩

theorem sampleCluster_node {six : Bool} {nd : Node} (h : nd ∈ (sampleCluster six).nodes) :
    nd.ranges = [⟨3, 0, 1⟩, ⟨10, 0, 0⟩] ∧ nd.host ≠ [] ∧ 0x5b ∉ nd.host ∧ 0x5d ∉ nd.host := by
  simp only [sampleCluster, List.mem_cons, List.not_mem_nil, or_false] at h
  rcases h with rfl | rfl
  · exact ⟨rfl, by decide, by decide, by decide⟩
  · cases six <;> exact ⟨rfl, by decide, by decide, by decide⟩

theorem sample_topic (six : Bool) : IsTopic (sampleCluster six) (goString "t")
    (.struct [("ErrorCode", .int16 0), ("Name", .str (some (goString "t"))), ("IsInternal", .bool false),
      ("Partitions", .arr (some [.struct [("ErrorCode", .int16 0), ("PartitionIndex", .int32 0), ("LeaderId", .int32 2),
        ("ReplicaNodes", .arr (some [.int32 2])), ("IsrNodes", .arr (some [.int32 2]))]]))]) := by
  refine ⟨rfl, _, rfl, ?_, ?_⟩
  · intro p hp
    obtain rfl := List.mem_singleton.1 hp
    exact ⟨0, rfl, rfl⟩
  · intro i hi
    simp only [sampleCluster] at hi
    split at hi
    · rename_i h
      obtain ⟨_, rfl⟩ := h
      exact ⟨_, List.mem_singleton.2 rfl, rfl⟩
    · exact absurd rfl hi

theorem sampleCluster_runs (six : Bool) : (sampleCluster six).Runs (clusterNet six) := by
  refine ⟨?_, ?_, ?_, ?_, ?_⟩
  · rintro tr addr nd hnd ⟨p, hp, _⟩
    show (if addr = hostPort [] (-1) then some (⟨0⟩ : NetErr) else none) = none
    rw [if_neg]
    rintro rfl
    have : splitHostPort (hostPort [] (-1)) = some ([], goString "-1") := by decide +kernel
    rw [this] at hp
    simp only [Option.some.injEq, Prod.mk.injEq] at hp
    exact (sampleCluster_node hnd).2.1 hp.1.symm
  · intro nd hnd
    rw [(sampleCluster_node hnd).1]; decide
  · intro tr n id client x nd hnd _ _
    rw [(sampleCluster_node hnd).1]
    refine ⟨[], clusterNet_reply six tr n .ApiVersions 0 id client x, ?_⟩
    rw [reply_drop (by decide)]
    decide +kernel
  · intro tr n v id client x nd hnd _ ho _
    rw [(sampleCluster_node hnd).1] at ho
    have hv := sample_metadata ho
    refine ⟨_, [], clusterNet_reply six tr n .Metadata v id client x, ?_, ?_, ?_⟩
    · show Protocol.Fields.Valid false v Protocol.MetadataResponse _
      rcases hv with rfl | rfl <;> cases six <;>
        simp [Protocol.MetadataResponse, Protocol.MetadataResponseBroker, Protocol.MetadataResponseTopic,
          Protocol.MetadataResponsePartition, Protocol.field, Protocol.nullable, Protocol.Fields.Valid, Protocol.Ty.Valid,
          Protocol.Present, clusterAnswer, sampleCluster, sampleEntry, Val.get, List.lookup, goString]
    · rw [reply_drop (by rcases hv with rfl | rfl <;> decide)]
      rcases hv with rfl | rfl <;> cases six <;> decide +kernel
    · refine ⟨⟨_, rfl, ?_, ?_⟩, fun _ => rfl, ⟨_, rfl, ?_, ?_⟩⟩
      · intro b hb
        obtain ⟨nd, hnd, rfl⟩ := List.mem_map.1 hb
        exact ⟨nd, hnd, rfl, rfl, rfl⟩
      · intro nd hnd
        exact ⟨_, List.mem_map.2 ⟨nd, hnd, rfl⟩, rfl, rfl, rfl⟩
      · intro t ht
        obtain rfl := List.mem_singleton.1 ht
        exact ⟨goString "t", sample_topic six⟩
      · intro topic _ ⟨i, hi⟩
        simp only [sampleCluster] at hi
        split at hi
        · rename_i h
          obtain ⟨rfl, rfl⟩ := h
          exact ⟨_, List.mem_singleton.2 rfl, sample_topic six⟩
        · exact absurd rfl hi
  · intro tr n v id client x nd hnd _ ho _
    rw [(sampleCluster_node hnd).1] at ho
    obtain rfl := sample_coordinator ho
    refine ⟨_, [], clusterNet_reply six tr n .FindCoordinator 0 id client x, ?_, ?_, ?_⟩
    · show Protocol.Fields.Valid false 0 Protocol.FindCoordinatorResponse _
      cases six <;>
        simp [Protocol.FindCoordinatorResponse, Protocol.field, Protocol.nullable, Protocol.Fields.Valid, Protocol.Ty.Valid,
          Protocol.Present, clusterAnswer, sampleEntry, Val.get, List.lookup, goString]
    · rw [reply_drop (by decide)]
      cases six <;> decide +kernel
    · intro group _ _
      refine ⟨?_, fun h => by cases h⟩
      intro nd hnd h
      simp only [sampleCluster, List.mem_cons, List.not_mem_nil, or_false] at hnd
      rcases hnd with rfl | rfl
      · exact absurd h (by simp [sampleCluster])
      · exact ⟨rfl, rfl, rfl, rfl⟩

theorem sampleCluster_shared (six : Bool) : (sampleCluster six).Shared := by
  intro nd hnd
  rw [(sampleCluster_node hnd).1]
  refine ⟨?_, ⟨0, ⟨3, 0, 1⟩, by simp, by decide, by decide, by decide⟩, 0, ⟨10, 0, 0⟩, by simp, by decide, by decide, by decide⟩
  intro r hr
  simp only [List.mem_cons, List.not_mem_nil, or_false] at hr
  rcases hr with rfl | rfl <;> exact ⟨by decide, by decide, fun a _ => Int.natCast_nonneg _⟩

theorem sampleCluster_plain {six : Bool} : ∀ nd ∈ (sampleCluster six).nodes, nd.Plain := by
  intro nd hnd
  unfold Node.Plain
  rw [(sampleCluster_node hnd).1]
  refine ⟨?_, ?_⟩
  · intro r hr a ha
    simp only [List.mem_cons, List.not_mem_nil, or_false] at hr
    rcases hr with rfl | rfl
    · obtain rfl : a = .Metadata := protocolKey_inj _ _ (by have : (3 : Int16).toInt = 3 := rfl; simp only [this] at ha; exact_mod_cast ha.symm)
      decide
    · obtain rfl : a = .FindCoordinator := protocolKey_inj _ _ (by have : (10 : Int16).toInt = 10 := rfl; simp only [this] at ha; exact_mod_cast ha.symm)
      decide
  · intro r hr
    simp only [List.mem_cons, List.not_mem_nil, or_false] at hr
    rcases hr with rfl | rfl <;> exact ⟨by decide, by decide⟩

/-- A client that knows the first node, after an address that is not in use. -/
def sampleClient : Client := newClient [goString ":-1", goString "a:9092"] []

theorem clusterNet_refuses (six : Bool) (tr : Trace) : (clusterNet six).dial tr (hostPort [] (-1)) = some ⟨0⟩ := by
  simp [clusterNet]

theorem sampleClient_knows (six : Bool) : Knows sampleClient (sampleCluster six) (clusterNet six) := by
  have h : ∃ nd ∈ (sampleCluster six).nodes, Denotes (goString "a:9092") nd.host nd.port :=
    ⟨_, List.mem_cons_self, goString "9092", by decide, by decide⟩
  refine ⟨?_, _, List.mem_cons_of_mem _ (List.mem_singleton.2 rfl), h⟩
  intro addr ha
  simp only [sampleClient, newClient, List.mem_cons, List.not_mem_nil, or_false] at ha
  rcases ha with rfl | rfl
  · exact .inr fun tr => ⟨⟨0⟩, (show goString ":-1" = hostPort [] (-1) by decide +kernel) ▸ clusterNet_refuses six tr⟩
  · exact .inl h

theorem sampleCluster_one {six : Bool} : ∀ nd ∈ (sampleCluster six).nodes, ∀ r ∈ nd.ranges,
    r.key.toInt = (Api.Metadata).protocolKey → 1 ≤ r.hi := by
  intro nd hnd
  rw [(sampleCluster_node hnd).1]
  intro r hr hk
  simp only [List.mem_cons, List.not_mem_nil, or_false] at hr
  rcases hr with rfl | rfl
  · decide
  · exact absurd hk (by decide)

/-- The full claim is false. -/
theorem C67_fails : ¬C67_statement := by
  intro h
  have h1 := h (sampleCluster true) (clusterNet true) sampleClient [] (sampleCluster_ordered _) (sampleCluster_runs _)
    (sampleClient_knows _) (sampleCluster_shared _) (fun nd hnd => (sampleCluster_node hnd).2.2) (by decide)
  have hnd : (⟨2, goString "::1", 9092, [⟨3, 0, 1⟩, ⟨10, 0, 0⟩]⟩ : Node) ∈ (sampleCluster true).nodes :=
    List.mem_cons_of_mem _ (List.mem_singleton.2 rfl)
  exact (C67_ipv6_fails (sampleCluster_ordered true) (sampleCluster_runs _) (sampleClient_knows _) (sampleCluster_shared _)
    (by decide) sampleCluster_plain sampleCluster_one hnd (by decide) []).2.1 rfl (h1.controller _ hnd rfl)

/-- A cluster, a network and a client as in `C67_partial`. -/
example : Finds sampleClient (sampleCluster false) (clusterNet false) [] :=
  C67_partial (sampleCluster_ordered _) (sampleCluster_runs _) (sampleClient_knows _) (sampleCluster_shared _)
    (fun nd hnd => (sampleCluster_node hnd).2.2) (by decide) sampleCluster_plain sampleCluster_one
    (by
      intro nd hnd
      simp only [sampleCluster, List.mem_cons, List.not_mem_nil, or_false] at hnd
      rcases hnd with rfl | rfl <;> decide)
    (fun tr => ⟨⟨0⟩, clusterNet_refuses _ tr⟩) []

end Kafka.Props
