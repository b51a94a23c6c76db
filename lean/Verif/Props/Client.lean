import Verif.Client.Lemmas
import Verif.Props.Broker
import Verif.Gen.Proof.ApiVersions
import Verif.Gen.Proof.Metadata
import Verif.Gen.Proof.FindCoordinator
/-!
Properties of the client (C39–C41, C45, C46): bootstrap, lookups, options, connections left open and
errors reported by brokers.

`m env tr = (o, tr')`: the call `m`, made on the network `env` after the events `tr`, ends with `o`
after the events `tr'`.  Networks are arbitrary functions of the events so far.
-/
namespace Kafka.Props

open Kafka.Client Kafka.Msg

/-- The addresses dialled. -/
def dials (tr : Trace) : List GoString := tr.filterMap fun
  | .dial a _ _ => some a
  | _ => none

/-- The addresses of the connections made: connection `n` is the `n`-th. -/
def conns (tr : Trace) : List GoString := tr.filterMap fun
  | .dial a _ none => some a
  | _ => none

/-- Requests were sent on connections made before. -/
def Fresh (tr : Trace) : Prop := ∀ n, (conns tr).length ≤ n → tr.sent n = 0

theorem dialed_conns (tr : Trace) : tr.dialed = (conns tr).length := by
  induction tr with
  | nil => rfl
  | cons e tr ih =>
    unfold Trace.dialed conns at ih ⊢
    rw [List.countP_cons, List.filterMap_cons, ih]
    cases e with
    | dial a m r => cases r <;> rfl
    | request _ _ _ => rfl
    | close _ => rfl

theorem dials_append (a b : Trace) : dials (a ++ b) = dials a ++ dials b := by simp [dials]
theorem conns_append (a b : Trace) : conns (a ++ b) = conns a ++ conns b := by simp [conns]
theorem sent_append (a b : Trace) (n : Nat) : Trace.sent (a ++ b) n = Trace.sent a n + Trace.sent b n := by
  simp [Trace.sent, List.countP_append]

theorem Fresh.nil : Fresh [] := fun _ _ => rfl

theorem Fresh.dialErr {tr : Trace} (h : Fresh tr) (a : GoString) (m : DialMode) (e : NetErr) :
    Fresh (tr ++ [.dial a m (some e)]) := by
  intro n hn
  rw [sent_append_dial]
  refine h n ?_
  rw [conns_append] at hn
  simpa [conns] using hn

theorem Fresh.dialed {tr : Trace} (h : Fresh tr) (a : GoString) (m : DialMode) (bytes : List Byte) (r : Reply) :
    Fresh (tr ++ [.dial a m none, .request tr.dialed bytes r]) := by
  intro n hn
  rw [conns_append, List.length_append] at hn
  have h2 : (conns [.dial a m none, .request tr.dialed bytes r]).length = 1 := rfl
  rw [sent_append, h n (by omega), dialed_conns]
  have : ((conns tr).length == n) = false := by simp; omega
  simp [Trace.sent, this]

theorem newBroker_conn {addr : GoString} {opts : List Opt} {env : Env} {tr tr' : Trace} {h : Handle}
    (e : newBroker addr opts env tr = (.ok h, tr')) :
    dials tr' = dials tr ++ [addr] ∧ (conns tr')[h.conn]? = some addr := by
  obtain ⟨h1, _, _, body, stale, resp, d, rfl, _⟩ := newBroker_ok e
  refine ⟨by rw [dials_append]; rfl, ?_⟩
  rw [h1, dialed_conns, conns_append]
  show (conns tr ++ [addr])[(conns tr).length]? = some addr
  simp

theorem newBroker_err_dials {addr : GoString} {opts : List Opt} {env : Env} {tr tr' : Trace} {x : Err}
    (e : newBroker addr opts env tr = (.err x, tr')) :
    dials tr' = dials tr ++ [addr] ∧ (Fresh tr → Fresh tr') := by
  rcases newBroker_err e with ⟨y, rfl⟩ | ⟨bytes, r, rfl⟩
  · exact ⟨by rw [dials_append]; rfl, fun h => h.dialErr _ _ _⟩
  · exact ⟨by rw [dials_append]; rfl, fun h => h.dialed _ _ _ _⟩

/-! ## C39: bootstrap fail-over -/

/-- Specification: `h` is a broker at the first of the addresses to which `NewBroker` succeeds, after
failures at those before it. -/
inductive FirstUp (env : Env) (opts : List Opt) : Trace → List GoString → Handle → Trace → Prop where
  | here {tr tr' : Trace} {addr : GoString} {addrs : List GoString} {h : Handle} :
      newBroker addr opts env tr = (.ok h, tr') → FirstUp env opts tr (addr :: addrs) h tr'
  | skip {tr tr1 tr' : Trace} {addr : GoString} {addrs : List GoString} {h : Handle} {e : Err} :
      newBroker addr opts env tr = (.err e, tr1) → FirstUp env opts tr1 addrs h tr' →
      FirstUp env opts tr (addr :: addrs) h tr'

/-- Specification: `NewBroker` fails at all of the addresses; `e` is the last error. -/
inductive NoneUp (env : Env) (opts : List Opt) : Trace → List GoString → Err → Trace → Prop where
  | last {tr tr' : Trace} {addr : GoString} {e : Err} :
      newBroker addr opts env tr = (.err e, tr') → NoneUp env opts tr [addr] e tr'
  | skip {tr tr1 tr' : Trace} {addr : GoString} {addrs : List GoString} {e e' : Err} :
      newBroker addr opts env tr = (.err e, tr1) → NoneUp env opts tr1 addrs e' tr' →
      NoneUp env opts tr (addr :: addrs) e' tr'

/-- The first is the broker reached: the addresses dialled are those up to its own. -/
theorem C39_first {env : Env} {opts : List Opt} {tr tr' : Trace} {addrs : List GoString} {h : Handle}
    (e : FirstUp env opts tr addrs h tr') : ∃ before addr after, addrs = before ++ addr :: after ∧
      dials tr' = dials tr ++ before ++ [addr] ∧ (conns tr')[h.conn]? = some addr := by
  induction e with
  | @here tr tr' addr addrs h e =>
    obtain ⟨h1, h2⟩ := newBroker_conn e
    exact ⟨[], addr, addrs, rfl, by rw [List.append_nil]; exact h1, h2⟩
  | @skip tr tr1 tr' addr addrs h x e _ ih =>
    obtain ⟨before, a, after, h1, h2, h3⟩ := ih
    refine ⟨addr :: before, a, after, by rw [h1]; rfl, ?_, h3⟩
    rw [h2, (newBroker_err_dials e).1]
    simp

/-- When none is up, all are dialled. -/
theorem C39_all {env : Env} {opts : List Opt} {tr tr' : Trace} {addrs : List GoString} {x : Err}
    (e : NoneUp env opts tr addrs x tr') : dials tr' = dials tr ++ addrs := by
  induction e with
  | last e => exact (newBroker_err_dials e).1
  | skip e _ ih => rw [ih, (newBroker_err_dials e).1]; simp

theorem dialLoop_first {α : Type} {env : Env} {opts : List Opt} {tr tr' : Trace} {addrs : List GoString} {h : Handle}
    (e : FirstUp env opts tr addrs h tr') (callback : Handle → M α) (zero : α) (last : Option Err) :
    dialLoop opts callback zero addrs last env tr = callback h env tr' := by
  induction e generalizing last with
  | here e => unfold dialLoop; simp only [e]
  | skip e _ ih => unfold dialLoop; simp only [e]; exact ih _

theorem dialLoop_none {α : Type} {env : Env} {opts : List Opt} {tr tr' : Trace} {addrs : List GoString} {x : Err}
    (e : NoneUp env opts tr addrs x tr') (callback : Handle → M α) (zero : α) (last : Option Err) :
    dialLoop opts callback zero addrs last env tr = (.err x, tr') := by
  induction e generalizing last with
  | last e => unfold dialLoop; simp only [e]; rfl
  | skip e _ ih => unfold dialLoop; simp only [e]; exact ih _

/-- The request of `Metadata`: topics by name, none for none. -/
def metadataRequest (topics : List GoString) : MetadataRequest :=
  { Topics := if topics = [] then none else some (topics.map fun t => { Name := t }) }

/-- `Metadata` asks the first bootstrap address that connects. -/
theorem C39_metadata {env : Env} {c : Client} {tr tr' : Trace} {h : Handle}
    (e : FirstUp env c.opts tr c.bootstrap h tr') (topics : List GoString) :
    c.metadata topics env tr = doCall h.conn (h.broker.metadata (metadataRequest topics)) env tr' :=
  dialLoop_first e _ _ _

/-- ... and returns an error, the last one, when none connects. -/
theorem C39_metadata_none {env : Env} {c : Client} {tr tr' : Trace} {x : Err}
    (e : NoneUp env c.opts tr c.bootstrap x tr') (topics : List GoString) :
    c.metadata topics env tr = (.err x, tr') :=
  dialLoop_none e _ _ _

/-- The same for the other operations: lookups fail when no bootstrap address connects. -/
theorem C39_lookups_none {env : Env} {c : Client} {tr tr' : Trace} {x : Err}
    (e : NoneUp env c.opts tr c.bootstrap x tr') (topic group : GoString) (partition : Int32) :
    c.dialController env tr = (.err x, tr') ∧ c.dialLeader topic partition env tr = (.err x, tr') ∧
    c.dialGroupCoordinator group env tr = (.err x, tr') := by
  have h := fun topics => C39_metadata_none e topics
  refine ⟨?_, ?_, ?_⟩
  · simp only [Client.dialController, M.bind, h]
  · simp only [Client.dialLeader, M.bind, h]
  · have : ∀ {α : Type} (cb : Handle → M α) z, c.dialBootstrap cb z env tr = (.err x, tr') :=
      fun cb z => dialLoop_none e _ _ _
    simp only [Client.dialGroupCoordinator, Client.dialCoordinator, M.bind, this]

/-- ... and a group coordinator is asked for at the first that does. -/
theorem C39_coordinator {env : Env} {c : Client} {tr tr' : Trace} {h : Handle}
    (e : FirstUp env c.opts tr c.bootstrap h tr') (group : GoString) :
    c.dialGroupCoordinator group env tr =
      ((doCall h.conn (h.broker.findCoordinator { Key := group, KeyType := 0 })).bind fun resp =>
        newBroker (hostPort resp.Host resp.Port) c.opts) env tr' := by
  have : c.dialBootstrap (fun h => doCall h.conn (h.broker.findCoordinator { Key := group, KeyType := 0 })) {} env tr = _ :=
    dialLoop_first e _ _ _
  simp only [Client.dialGroupCoordinator, Client.dialCoordinator, M.bind, this]

/-- There is no other case than these, a call that never returns or panics, and the empty list. -/
theorem C39_cases (env : Env) (opts : List Opt) (addrs : List GoString) (tr : Trace) :
    addrs = [] ∨ (∃ h tr', FirstUp env opts tr addrs h tr') ∨ (∃ x tr', NoneUp env opts tr addrs x tr') ∨
    ∃ addr ∈ addrs, ∃ tr1 tr', newBroker addr opts env tr1 = (.hang, tr') ∨ newBroker addr opts env tr1 = (.panic, tr') := by
  induction addrs generalizing tr with
  | nil => exact .inl rfl
  | cons addr addrs ih =>
    right
    cases hb : newBroker addr opts env tr with
    | mk o tr1 =>
      cases o with
      | ok h => exact .inl ⟨h, tr1, .here hb⟩
      | panic => exact .inr (.inr ⟨addr, by simp, tr, tr1, .inr hb⟩)
      | hang => exact .inr (.inr ⟨addr, by simp, tr, tr1, .inl hb⟩)
      | err e =>
        rcases ih tr1 with h | ⟨h, tr', h1⟩ | ⟨x, tr', h1⟩ | ⟨a, ha, h1⟩
        · subst h; exact .inr (.inl ⟨e, tr1, .last hb⟩)
        · exact .inl ⟨h, tr', .skip hb h1⟩
        · exact .inr (.inl ⟨x, tr', .skip hb h1⟩)
        · exact .inr (.inr ⟨a, List.mem_cons_of_mem _ ha, h1⟩)

/-- A body from which the version table can be negotiated: an ApiVersions response at version 0. -/
def GoodVersions (body : List Byte) : Prop :=
  ∃ (resp : ApiVersionsResponse) (v : ApiVersion), ApiVersionsResponse.Fits 0 resp ∧
    body = bytesOf (ApiVersionsResponse.encode 0 resp) ∧
    Negotiates (some resp.ApiKeys.elems) (.ok v)

theorem reads_body {α : Type} {dec : Dec α} {id : Int32} {body stale : List Byte} {a : α} (h : Reads dec body a)
    (hl : (body ++ stale).length < 2 ^ 31) :
    ∃ d, dec { raw := Wire.int32 id ++ body ++ stale, length := (Wire.int32 id ++ body).length, offset := 4 } = .ok a d := by
  have h4 : (Wire.int32 id).length = 4 := by rw [wire_int32]; rfl
  rw [List.length_append] at hl
  refine ⟨_, h.1 _ ⟨(by decide : (0 : Int) ≤ 4), ?_, ?_, ?_⟩ [] ?_⟩
  · show (4 : Int) ≤ ((Wire.int32 id ++ body).length : Int)
    rw [List.length_append]; omega
  · show ((Wire.int32 id ++ body).length : Int) ≤ ((Wire.int32 id ++ body ++ stale).length : Int)
    rw [List.length_append (bs := stale)]; omega
  · show (Wire.int32 id ++ body ++ stale).length < 2 ^ 62
    rw [List.length_append, List.length_append]; omega
  · unfold Decoder.rest
    simp only [Int.toNat_natCast, List.take_left', List.append_nil]
    exact List.drop_left' h4

theorem doCall_reads {α : Type} {conn : Nat} {call : Call α} {env : Env} {tr : Trace} {body stale : List Byte} {a : α}
    (hr : env.reply tr conn (bytesOf (call.encode (Int32.ofNat (tr.sent conn + 1)))) = .frame body stale)
    (h : Reads call.decode body a) (hl : (body ++ stale).length < 2 ^ 31) :
    doCall conn call env tr =
      (.ok a, tr ++ [.request conn (bytesOf (call.encode (Int32.ofNat (tr.sent conn + 1)))) (.frame body stale)]) := by
  obtain ⟨d, hd⟩ := reads_body (id := Int32.ofNat (tr.sent conn + 1)) h hl
  unfold doCall
  simp only [hr, hd]

theorem newBroker_answer {env : Env} {opts : List Opt} {tr : Trace} {addr : GoString} {resp : ApiVersionsResponse}
    {stale : List Byte} {v : ApiVersion} (hd : env.dial tr addr = none)
    (hr : env.reply (tr ++ [.dial addr (dialMode (buildConfig opts)) none]) tr.dialed
      (bytesOf ((Broker.apiVersions { config := buildConfig opts } {}).encode 1)) =
        .frame (bytesOf (ApiVersionsResponse.encode 0 resp)) stale)
    (hl : (bytesOf (ApiVersionsResponse.encode 0 resp) ++ stale).length < 2 ^ 31)
    (h1 : ApiVersionsResponse.Fits 0 resp) (h3 : Negotiates (some resp.ApiKeys.elems) (.ok v))
    (hm : dialMode (buildConfig opts) ≠ .nilDialer) (hf : Fresh tr) :
    ∃ tr', newBroker addr opts env tr = (.ok ⟨{ config := buildConfig opts, apiVersion := v }, tr.dialed⟩, tr') := by
  have hc : connect addr opts env tr = (.ok tr.dialed, tr ++ [.dial addr (dialMode (buildConfig opts)) none]) := by
    unfold connect
    split
    · rename_i hn; exact absurd hn hm
    · rw [hd]
  have h0 : Trace.sent (tr ++ [.dial addr (dialMode (buildConfig opts)) none]) tr.dialed = 0 := by
    rw [sent_append_dial]
    exact hf _ (by rw [dialed_conns]; exact Nat.le_refl _)
  have hrd : Reads (ApiVersionsResponse.decode 0 {}) (bytesOf (ApiVersionsResponse.encode 0 resp))
      (ApiVersionsResponse.seen 0 resp {}) := by
    have hb : bytesOf (ApiVersionsResponse.encode 0 resp) = ApiVersionsResponse.wire 0 resp :=
      (ApiVersionsResponse.lawful.emits 0 resp).bytesOf
    rw [hb]; exact ApiVersionsResponse.lawful.reads 0 resp h1 {}
  have hdo := doCall_reads (conn := tr.dialed) (call := Broker.apiVersions { config := buildConfig opts } {})
    (by rw [h0]; exact hr) hrd hl
  have hk : (ApiVersionsResponse.seen 0 resp {}).ApiKeys = some resp.ApiKeys.elems := by
    simp [ApiVersionsResponse.seen, ApiVersionsResponseKey18.seen]
  have hn := ((negotiateFuel_exact _).1 _).2 h3
  rw [← hk] at hn
  have e : newBroker addr opts env tr = newBroker addr opts env tr := rfl
  conv at e =>
    rhs
    unfold newBroker
    simp only [M.bind, M.wrap, hc, hdo, hn]
  exact ⟨_, e⟩

theorem newBroker_good {env : Env} {opts : List Opt} {tr : Trace} {addr : GoString}
    (hd : env.dial tr addr = none)
    (hv : ∀ tr n bytes, Trace.sent tr n = 0 →
      ∃ body stale, env.reply tr n bytes = .frame body stale ∧ (body ++ stale).length < 2 ^ 31 ∧ GoodVersions body)
    (hm : dialMode (buildConfig opts) ≠ .nilDialer) (hf : Fresh tr) :
    ∃ h tr', newBroker addr opts env tr = (.ok h, tr') := by
  have h0 : Trace.sent (tr ++ [.dial addr (dialMode (buildConfig opts)) none]) tr.dialed = 0 := by
    rw [sent_append_dial]
    exact hf _ (by rw [dialed_conns]; exact Nat.le_refl _)
  obtain ⟨body, stale, hr, hl, resp, v, h1, h2, h3⟩ := hv _ tr.dialed
    (bytesOf ((Broker.apiVersions { config := buildConfig opts } {}).encode 1)) h0
  subst h2
  obtain ⟨tr', e⟩ := newBroker_answer hd hr hl h1 h3 hm hf
  exact ⟨_, tr', e⟩

/-- On a network on which the addresses `up` accept connections and answer the version request, and no
others accept connections: `Metadata` dials the addresses of the list up to the first that is up, and
sends its request there; if there is none, it returns an error. -/
theorem C39_failover {env : Env} {c : Client} (up : GoString → Bool)
    (hup : ∀ tr a, env.dial tr a = none ↔ up a = true)
    (hv : ∀ tr n bytes, Trace.sent tr n = 0 →
      ∃ body stale, env.reply tr n bytes = .frame body stale ∧ (body ++ stale).length < 2 ^ 31 ∧ GoodVersions body)
    (hm : dialMode (buildConfig c.opts) ≠ .nilDialer) {tr : Trace} (hf : Fresh tr) (topics : List GoString) :
    (∀ addr, c.bootstrap.find? up = some addr → ∃ tr1, ∃ h : Handle,
      c.metadata topics env tr = doCall h.conn (h.broker.metadata (metadataRequest topics)) env tr1 ∧
      dials tr1 = dials tr ++ c.bootstrap.takeWhile (fun a => !up a) ++ [addr] ∧ (conns tr1)[h.conn]? = some addr) ∧
    (c.bootstrap.find? up = none → c.bootstrap ≠ [] →
      ∃ e, (c.metadata topics env tr).1 = .err e ∧ dials (c.metadata topics env tr).2 = dials tr ++ c.bootstrap) := by
  have hdown : ∀ tr a, up a = false → ∃ e tr', newBroker a c.opts env tr = (.err e, tr') := by
    intro tr a ha
    cases hd : env.dial tr a with
    | none => rw [(hup tr a).1 hd] at ha; cases ha
    | some e =>
      have hc : connect a c.opts env tr = (.err (.wrap (.dial a) (.net e)), tr ++ [.dial a (dialMode (buildConfig c.opts)) (some e)]) := by
        unfold connect
        split
        · rename_i hn; exact absurd hn hm
        · rw [hd]
      have e : newBroker a c.opts env tr = newBroker a c.opts env tr := rfl
      conv at e =>
        rhs
        unfold newBroker
        simp only [M.bind, hc]
      exact ⟨_, _, e⟩
  have key : ∀ (addrs : List GoString) (tr : Trace), Fresh tr →
      (∀ addr, addrs.find? up = some addr → ∃ tr1 h, FirstUp env c.opts tr addrs h tr1 ∧
        dials tr1 = dials tr ++ addrs.takeWhile (fun a => !up a) ++ [addr] ∧ (conns tr1)[h.conn]? = some addr) ∧
      (addrs.find? up = none → addrs ≠ [] → ∃ e tr1, NoneUp env c.opts tr addrs e tr1) := by
    intro addrs
    induction addrs with
    | nil => intro tr _; exact ⟨fun _ h => (by cases h), fun _ h => absurd rfl h⟩
    | cons a addrs ih =>
      intro tr hf
      cases ha : up a with
      | true =>
        obtain ⟨h, tr', hb⟩ := newBroker_good (opts := c.opts) ((hup tr a).2 ha) hv hm hf
        refine ⟨fun addr he => ?_, fun he => ?_⟩
        · rw [List.find?_cons_of_pos ha] at he
          cases he
          refine ⟨tr', h, .here hb, ?_, (newBroker_conn hb).2⟩
          rw [(newBroker_conn hb).1]
          simp [ha]
        · rw [List.find?_cons_of_pos ha] at he; cases he
      | false =>
        obtain ⟨e, tr', hb⟩ := hdown tr a ha
        obtain ⟨h1, h2⟩ := newBroker_err_dials hb
        obtain ⟨i1, i2⟩ := ih tr' (h2 hf)
        have hne : ¬(up a = true) := by rw [ha]; simp
        refine ⟨fun addr he => ?_, fun he _ => ?_⟩
        · rw [List.find?_cons_of_neg hne] at he
          obtain ⟨tr1, h, j1, j2, j3⟩ := i1 addr he
          refine ⟨tr1, h, .skip hb j1, ?_, j3⟩
          rw [j2, h1]
          simp [ha]
        · rw [List.find?_cons_of_neg hne] at he
          by_cases hn : addrs = []
          · subst hn; exact ⟨e, tr', .last hb⟩
          · obtain ⟨e', tr1, j⟩ := i2 he hn
            exact ⟨e', tr1, .skip hb j⟩
  obtain ⟨k1, k2⟩ := key c.bootstrap tr hf
  refine ⟨fun addr he => ?_, fun he hn => ?_⟩
  · obtain ⟨tr1, h, j1, j2, j3⟩ := k1 addr he
    exact ⟨tr1, h, C39_metadata j1 topics, j2, j3⟩
  · obtain ⟨e, tr1, j⟩ := k2 he hn
    rw [C39_metadata_none j topics]
    exact ⟨e, rfl, C39_all j⟩

/-! ### A network for the examples -/

/-- The addresses `up` accept connections; Metadata 0 to `mv` and FindCoordinator 0 to 1 are supported;
the bodies of the replies to these are `m` and `co`. -/
def sampleNet (up : GoString → Bool) (mv : Int16) (m co : List Byte) : Env :=
  { dial := fun _ a => if up a then none else some ⟨0⟩
    reply := fun _ _ bytes =>
      if (bytes.drop 4).take 2 = [0, 18] then
        .frame (bytesOf (ApiVersionsResponse.encode 0 { ApiKeys := some [⟨3, 0, mv⟩, ⟨10, 0, 1⟩] })) []
      else if (bytes.drop 4).take 2 = [0, 3] then .frame m []
      else .frame co [] }

def addrA : GoString := goString "a:1"
def addrB : GoString := goString "b:2"
def sampleBrokers : Slice MetadataResponseBroker3 :=
  some [{ NodeId := 0, Host := goString "x", Port := 1 }, { NodeId := 1, Host := goString "y", Port := 9092 }]
def sampleMetadata : MetadataResponse :=
  { Brokers := sampleBrokers, ControllerId := 1,
    Topics := some [{ Name := goString "t", Partitions := some [{ PartitionIndex := 4, LeaderId := 1 }] }] }

/-- Non-trivial instance: the first address is down, the second answers. -/
example : FirstUp (sampleNet (· == addrB) 1 [] []) [] [] [addrA, addrB]
    (newBroker addrB [] (sampleNet (· == addrB) 1 [] []) (newBroker addrA [] (sampleNet (· == addrB) 1 [] []) []).2 |>.1
      |> fun | .ok h => h | _ => ⟨{ config := {} }, 0⟩)
    (newBroker addrB [] (sampleNet (· == addrB) 1 [] []) (newBroker addrA [] (sampleNet (· == addrB) 1 [] []) []).2).2 :=
  .skip (e := .wrap (.dial addrA) (.net ⟨0⟩)) (tr1 := [.dial addrA (.plain .zero) (some ⟨0⟩)]) rfl (.here rfl)

/-- Non-trivial instance: both are down. -/
example : NoneUp (sampleNet (fun _ => false) 1 [] []) [] [] [addrA, addrB] (.wrap (.dial addrB) (.net ⟨0⟩))
    [.dial addrA (.plain .zero) (some ⟨0⟩), .dial addrB (.plain .zero) (some ⟨0⟩)] :=
  .skip rfl (.last rfl)

/-- The full claim for `Metadata`: it returns no value unless a broker answered it. -/
def C39_statement : Prop :=
  ∀ (c : Client) (topics : List GoString) (env : Env) (tr : Trace) (m : MetadataResponse) (tr' : Trace),
    c.metadata topics env tr = (.ok m, tr') → ∃ h tr1, FirstUp env c.opts tr c.bootstrap h tr1

/-- It is false for the empty list: `Metadata` succeeds without having dialled anything... -/
theorem C39_empty (opts : List Opt) (topics : List GoString) (env : Env) (tr : Trace) :
    (newClient [] opts).metadata topics env tr = (.ok {}, tr) := rfl

theorem C39_fails : ¬C39_statement := by
  intro h
  obtain ⟨_, _, h1⟩ := h (newClient [] []) [] (sampleNet (fun _ => true) 1 [] []) [] {} [] rfl
  cases h1

/-- ... and the coordinator of every group is looked for at ":0". -/
theorem C39_empty_coordinator (opts : List Opt) (group : GoString) (env : Env) (tr : Trace) :
    (newClient [] opts).dialGroupCoordinator group env tr = newBroker (goString ":0") opts env tr := rfl

/-- It holds for all other lists. -/
theorem C39_partial {c : Client} (hne : c.bootstrap ≠ []) {topics : List GoString} {env : Env} {tr : Trace}
    {m : MetadataResponse} {tr' : Trace} (e : c.metadata topics env tr = (.ok m, tr')) :
    ∃ h tr1, FirstUp env c.opts tr c.bootstrap h tr1 := by
  have key : ∀ (addrs : List GoString) (last : Option Err) (tr : Trace), (addrs ≠ [] ∨ ∃ x, last = some x) →
      dialLoop c.opts (fun h => doCall h.conn (h.broker.metadata (metadataRequest topics))) {} addrs last env tr = (.ok m, tr') →
      ∃ h tr1, FirstUp env c.opts tr addrs h tr1 := by
    intro addrs
    induction addrs with
    | nil =>
      intro last tr h e
      rcases h with h | ⟨x, rfl⟩
      · exact absurd rfl h
      · cases e
    | cons a addrs ih =>
      intro last tr _ e
      unfold dialLoop at e
      split at e
      · rename_i h tr1 hb; exact ⟨h, tr1, .here hb⟩
      · rename_i x tr1 hb
        obtain ⟨h, tr2, h2⟩ := ih (some x) tr1 (.inr ⟨x, rfl⟩) e
        exact ⟨h, tr2, .skip hb h2⟩
      · cases e
      · cases e
  exact key c.bootstrap none tr (.inl hne) e

/-! ## C40: leader, controller and coordinator lookup -/

/-- Specification: the metadata names the broker at `host` and `port` as leader of the partition. -/
def NamesLeader (m : MetadataResponse) (topic : GoString) (partition : Int32) (host : GoString) (port : Int32) : Prop :=
  ∃ t ∈ m.Topics.elems, t.Name = topic ∧ ∃ p ∈ t.Partitions.elems, p.PartitionIndex = partition ∧
    ∃ b ∈ m.Brokers.elems, b.NodeId = p.LeaderId ∧ b.Host = host ∧ b.Port = port

/-- Specification: the metadata names the broker at `host` and `port` as controller. -/
def NamesController (m : MetadataResponse) (host : GoString) (port : Int32) : Prop :=
  ∃ b ∈ m.Brokers.elems, b.NodeId = m.ControllerId ∧ b.Host = host ∧ b.Port = port

theorem dialNode_cases (c : Client) (m : MetadataResponse) (id : Int32) :
    (∃ b ∈ m.Brokers.elems, b.NodeId = id ∧ c.dialNode m id = newBroker (hostPort b.Host b.Port) c.opts) ∨
    ((∀ b ∈ m.Brokers.elems, b.NodeId ≠ id) ∧ c.dialNode m id = M.err (.noNode id)) := by
  unfold Client.dialNode
  split
  · rename_i b hb
    have h1 := List.find?_some hb
    exact .inl ⟨b, List.mem_of_find?_eq_some hb, by simpa using h1, rfl⟩
  · rename_i hb
    refine .inr ⟨fun b hm => ?_, rfl⟩
    have := List.find?_eq_none.1 hb b hm
    simpa using this

/-- `DialLeader`: once the metadata has arrived, it connects to a broker the metadata names, or returns
an error without dialling. -/
theorem C40_leader {c : Client} {topic : GoString} {partition : Int32} {env : Env} {tr tr1 : Trace}
    {m : MetadataResponse} (hm : c.metadata [topic] env tr = (.ok m, tr1)) :
    (∃ host port, NamesLeader m topic partition host port ∧
      c.dialLeader topic partition env tr = newBroker (hostPort host port) c.opts env tr1) ∨
    (∃ e, c.dialLeader topic partition env tr = (.err e, tr1)) := by
  unfold Client.dialLeader
  simp only [M.bind, hm]
  cases ht : findTopic m topic with
  | error e => exact .inr ⟨_, rfl⟩
  | ok t =>
    dsimp only
    cases hp : findPartition t partition with
    | error e => exact .inr ⟨_, rfl⟩
    | ok p =>
      dsimp only
      unfold findTopic at ht
      split at ht
      · rename_i t' ht'
        cases ht
        unfold findPartition at hp
        split at hp
        · rename_i p' hp'
          cases hp
          have h1 := List.find?_some ht'
          have h2 := List.find?_some hp'
          rcases dialNode_cases c m p.LeaderId with ⟨b, hb, hid, hd⟩ | ⟨_, hd⟩
          · left
            refine ⟨b.Host, b.Port, ⟨t, List.mem_of_find?_eq_some ht', by simpa using h1, p,
              List.mem_of_find?_eq_some hp', by simpa using h2, b, hb, hid, rfl, rfl⟩, by rw [hd]⟩
          · right
            exact ⟨_, by rw [hd]; rfl⟩
        · cases hp
      · cases ht

/-- When the metadata names none, it is the error. -/
theorem C40_leader_none {c : Client} {topic : GoString} {partition : Int32} {env : Env} {tr tr1 : Trace}
    {m : MetadataResponse} (hm : c.metadata [topic] env tr = (.ok m, tr1))
    (hn : ∀ host port, ¬NamesLeader m topic partition host port) :
    ∃ e, c.dialLeader topic partition env tr = (.err e, tr1) := by
  rcases C40_leader (partition := partition) hm with ⟨host, port, h, _⟩ | h
  · exact absurd h (hn host port)
  · exact h

/-- The metadata lists no topic, partition of a topic, or node twice. -/
structure Distinct (m : MetadataResponse) : Prop where
  topics : ∀ t ∈ m.Topics.elems, ∀ t' ∈ m.Topics.elems, t.Name = t'.Name → t = t'
  partitions : ∀ t ∈ m.Topics.elems, ∀ p ∈ t.Partitions.elems, ∀ p' ∈ t.Partitions.elems,
    p.PartitionIndex = p'.PartitionIndex → p = p'
  brokers : ∀ b ∈ m.Brokers.elems, ∀ b' ∈ m.Brokers.elems, b.NodeId = b'.NodeId → b = b'

theorem find_unique {α : Type} {l : List α} {q : α → Bool} {a : α} (ha : a ∈ l) (hq : q a = true)
    (hu : ∀ x ∈ l, q x = true → x = a) : l.find? q = some a := by
  cases h : l.find? q with
  | none => exact absurd hq (List.find?_eq_none.1 h a ha)
  | some x => rw [hu x (List.mem_of_find?_eq_some h) (List.find?_some h)]

/-- When the metadata lists nothing twice, the broker it names is the one connected to. -/
theorem C40_leader_found {c : Client} {topic : GoString} {partition : Int32} {env : Env} {tr tr1 : Trace}
    {m : MetadataResponse} (hm : c.metadata [topic] env tr = (.ok m, tr1)) (hd : Distinct m)
    {host : GoString} {port : Int32} (hn : NamesLeader m topic partition host port) :
    c.dialLeader topic partition env tr = newBroker (hostPort host port) c.opts env tr1 := by
  obtain ⟨t, ht, ht', p, hp, hp', b, hb, hb', rfl, rfl⟩ := hn
  unfold Client.dialLeader
  simp only [M.bind, hm]
  have h1 : findTopic m topic = .ok t := by
    unfold findTopic
    rw [find_unique ht (by simp [ht']) fun x hx hq => hd.topics x hx t ht (by rw [ht']; simpa using hq)]
  have h2 : findPartition t partition = .ok p := by
    unfold findPartition
    rw [find_unique hp (by simp [hp']) fun x hx hq => hd.partitions t ht x hx p hp (by rw [hp']; simpa using hq)]
  simp only [h1, h2]
  unfold Client.dialNode
  rw [find_unique hb (by simp [hb']) fun x hx hq => hd.brokers x hx b hb (by rw [hb']; simpa using hq)]

/-- `DialController`, in the same way. -/
theorem C40_controller {c : Client} {env : Env} {tr tr1 : Trace} {m : MetadataResponse}
    (hm : c.metadata [] env tr = (.ok m, tr1)) :
    (∃ host port, NamesController m host port ∧ c.dialController env tr = newBroker (hostPort host port) c.opts env tr1) ∨
    ((∀ host port, ¬NamesController m host port) ∧ ∃ e, c.dialController env tr = (.err e, tr1)) := by
  unfold Client.dialController
  simp only [M.bind, hm]
  rcases dialNode_cases c m m.ControllerId with ⟨b, hb, hid, hd⟩ | ⟨hn, hd⟩
  · exact .inl ⟨b.Host, b.Port, ⟨b, hb, hid, rfl, rfl⟩, by rw [hd]⟩
  · refine .inr ⟨fun host port ⟨b, hb, hid, _⟩ => hn b hb hid, _, by rw [hd]; rfl⟩

/-- No metadata, no connection. -/
theorem C40_no_metadata {c : Client} {env : Env} {tr tr1 : Trace} {e : Err} :
    (∀ topic partition, c.metadata [topic] env tr = (.err e, tr1) → c.dialLeader topic partition env tr = (.err e, tr1)) ∧
    (c.metadata [] env tr = (.err e, tr1) → c.dialController env tr = (.err e, tr1)) := by
  refine ⟨fun topic partition h => ?_, fun h => ?_⟩
  · simp only [Client.dialLeader, M.bind, h]
  · simp only [Client.dialController, M.bind, h]

/-- What the client decodes, when a broker sends `m` at version `v`, names the same leaders, and at
version 1 and above the same controller. -/
theorem C40_sent (v : Int16) (m : MetadataResponse) :
    (∀ topic partition host port, NamesLeader (m.seen v {}) topic partition host port ↔
      NamesLeader m topic partition host port) ∧
    (v ≥ 1 → ∀ host port, NamesController (m.seen v {}) host port ↔ NamesController m host port) := by
  have hB : ∀ id host port, (∃ b ∈ (m.seen v {}).Brokers.elems, b.NodeId = id ∧ b.Host = host ∧ b.Port = port) ↔
      ∃ b ∈ m.Brokers.elems, b.NodeId = id ∧ b.Host = host ∧ b.Port = port := by
    intro id host port
    simp only [MetadataResponse.seen, Slice.elems, Option.getD_some, List.mem_map]
    constructor
    · rintro ⟨_, ⟨b, hb, rfl⟩, h⟩; exact ⟨b, hb, h⟩
    · rintro ⟨b, hb, h⟩; exact ⟨_, ⟨b, hb, rfl⟩, h⟩
  constructor
  · intro topic partition host port
    constructor
    · rintro ⟨t, ht, h1, p, hp, h2, h3⟩
      have ht' : t ∈ m.Topics.elems.map fun x => x.seen v {} := ht
      obtain ⟨t0, ht0, rfl⟩ := List.mem_map.1 ht'
      have hp' : p ∈ t0.Partitions.elems.map fun x => x.seen v {} := hp
      obtain ⟨p0, hp0, rfl⟩ := List.mem_map.1 hp'
      exact ⟨t0, ht0, h1, p0, hp0, h2, (hB _ _ _).1 h3⟩
    · rintro ⟨t, ht, h1, p, hp, h2, h3⟩
      exact ⟨t.seen v {}, List.mem_map.2 ⟨t, ht, rfl⟩, h1, p.seen v {}, List.mem_map.2 ⟨p, hp, rfl⟩, h2, (hB _ _ _).2 h3⟩
  · intro hv host port
    have hc : (m.seen v {}).ControllerId = m.ControllerId := if_pos hv
    unfold NamesController
    rw [hc]
    exact hB _ _ _

/-- A network that answers Metadata with `m`, as the library encodes it at the negotiated version. -/
theorem C40_answer {h : Handle} {env : Env} {tr : Trace} {topics : List GoString} {m : MetadataResponse} {stale : List Byte}
    (hf : MetadataResponse.Fits h.broker.apiVersion.Metadata m)
    (hr : ∀ bytes, env.reply tr h.conn bytes =
      .frame (bytesOf (MetadataResponse.encode h.broker.apiVersion.Metadata m)) stale)
    (hl : (bytesOf (MetadataResponse.encode h.broker.apiVersion.Metadata m) ++ stale).length < 2 ^ 31) :
    ∃ tr', doCall h.conn (h.broker.metadata (metadataRequest topics)) env tr =
      (.ok (m.seen h.broker.apiVersion.Metadata {}), tr') := by
  refine ⟨_, doCall_reads (hr _) ?_ hl⟩
  have := MetadataResponse.lawful.reads _ _ hf {}
  rwa [← (MetadataResponse.lawful.emits h.broker.apiVersion.Metadata m).bytesOf] at this

/-- The full claim for `DialController`, for the metadata as sent: at version 0 it is false.  Metadata
of version 0 does not say which node is the controller, and the client connects to node 0: here node 1
is the controller, but the client connects to x:1, not to y:9092. -/
theorem C40_controller_fails :
    NamesController sampleMetadata (goString "y") 9092 ∧ ¬NamesController sampleMetadata (goString "x") 1 ∧
    dials ((newClient [addrA] []).dialController
      (sampleNet (fun _ => true) 0 (bytesOf (MetadataResponse.encode 0 sampleMetadata)) []) []).2 =
      [addrA, goString "x:1"] := by
  refine ⟨⟨_, .tail _ (.head _), rfl, rfl, rfl⟩, ?_, by decide +kernel⟩
  rintro ⟨b, hb, h1, h2, _⟩
  simp only [sampleMetadata, sampleBrokers, Slice.elems, Option.getD_some, List.mem_cons, List.not_mem_nil, or_false] at hb h1
  rcases hb with rfl | rfl
  · simp at h1
  · exact absurd h2 (by decide)

/-- Non-trivial instances: at version 1 controller and leader are found. -/
example : dials ((newClient [addrA] []).dialController
      (sampleNet (fun _ => true) 1 (bytesOf (MetadataResponse.encode 1 sampleMetadata)) []) []).2 =
        [addrA, goString "y:9092"] ∧
    dials ((newClient [addrA] []).dialLeader (goString "t") 4
      (sampleNet (fun _ => true) 1 (bytesOf (MetadataResponse.encode 1 sampleMetadata)) []) []).2 =
        [addrA, goString "y:9092"] ∧
    dials ((newClient [addrA] []).dialLeader (goString "t") 5
      (sampleNet (fun _ => true) 1 (bytesOf (MetadataResponse.encode 1 sampleMetadata)) []) []).2 = [addrA] := by
  decide +kernel

example : Distinct sampleMetadata := by
  refine ⟨?_, ?_, ?_⟩
  · intro t ht t' ht' _
    simp only [sampleMetadata, Slice.elems, Option.getD_some, List.mem_singleton] at ht ht'
    rw [ht, ht']
  · intro t ht p hp p' hp' _
    simp only [sampleMetadata, Slice.elems, Option.getD_some, List.mem_singleton] at ht
    subst ht
    simp only [Slice.elems, Option.getD_some, List.mem_singleton] at hp hp'
    rw [hp, hp']
  · intro b hb b' hb' h
    simp only [sampleMetadata, sampleBrokers, Slice.elems, Option.getD_some, List.mem_cons, List.not_mem_nil, or_false] at hb hb'
    rcases hb with rfl | rfl <;> rcases hb' with rfl | rfl <;> first | rfl | (simp at h)

/-- The full claim for `DialGroupCoordinator`: once the reply has arrived, it connects to the
coordinator named if there is one, and returns an error without dialling if the reply is an error. -/
def C40_coordinator_statement : Prop :=
  ∀ (c : Client) (group : GoString) (env : Env) (tr tr1 : Trace) (h : Handle) (resp : FindCoordinatorResponse) (tr2 : Trace),
    FirstUp env c.opts tr c.bootstrap h tr1 →
    doCall h.conn (h.broker.findCoordinator { Key := group, KeyType := 0 }) env tr1 = (.ok resp, tr2) →
    if resp.ErrorCode = 0 then c.dialGroupCoordinator group env tr = newBroker (hostPort resp.Host resp.Port) c.opts env tr2
    else ∃ e, c.dialGroupCoordinator group env tr = (.err e, tr2)

/-- It connects to the address in the reply, whatever the error code.  Missing: error replies. -/
theorem C40_coordinator_partial {c : Client} {group : GoString} {env : Env} {tr tr1 tr2 : Trace} {h : Handle}
    {resp : FindCoordinatorResponse} (hf : FirstUp env c.opts tr c.bootstrap h tr1)
    (hd : doCall h.conn (h.broker.findCoordinator { Key := group, KeyType := 0 }) env tr1 = (.ok resp, tr2)) :
    c.dialGroupCoordinator group env tr = newBroker (hostPort resp.Host resp.Port) c.opts env tr2 := by
  rw [C39_coordinator hf]
  simp only [M.bind, hd]

/-- A broker that does not know the coordinator (COORDINATOR_NOT_AVAILABLE). -/
def noCoordinator : FindCoordinatorResponse := { ErrorCode := 15, NodeId := -1, Port := -1 }

/-- The claim is false: the error is ignored and the client dials ":-1". -/
theorem C40_coordinator_fails : ¬C40_coordinator_statement ∧
    dials ((newClient [addrA] []).dialGroupCoordinator (goString "g")
      (sampleNet (fun _ => true) 0 [] (bytesOf (FindCoordinatorResponse.encode 1 noCoordinator))) []).2 =
      [addrA, goString ":-1"] := by
  have h1 : dials ((newClient [addrA] []).dialGroupCoordinator (goString "g")
      (sampleNet (fun _ => true) 0 [] (bytesOf (FindCoordinatorResponse.encode 1 noCoordinator))) []).2 =
      [addrA, goString ":-1"] := by decide +kernel
  refine ⟨fun hst => ?_, h1⟩
  have key : (match newBroker addrA [] (sampleNet (fun _ => true) 0 []
        (bytesOf (FindCoordinatorResponse.encode 1 noCoordinator))) [] with
      | (.ok h, tr1) =>
        match doCall h.conn (h.broker.findCoordinator { Key := goString "g", KeyType := 0 })
          (sampleNet (fun _ => true) 0 [] (bytesOf (FindCoordinatorResponse.encode 1 noCoordinator))) tr1 with
        | (.ok resp, tr2) => decide (resp.ErrorCode ≠ 0 ∧ dials tr2 = [addrA])
        | _ => false
      | _ => false) = true := by decide +kernel
  split at key
  · rename_i h tr1 e1
    split at key
    · rename_i resp tr2 e2
      have hk := of_decide_eq_true key
      have := hst (newClient [addrA] []) (goString "g") _ [] tr1 h resp tr2 (.here e1) e2
      rw [if_neg hk.1] at this
      obtain ⟨e, he⟩ := this
      rw [he] at h1
      rw [hk.2] at h1
      exact absurd h1 (by decide)
    · cases key
  · cases key

/-! ### Addresses -/

/-- How an address is taken apart: the port is what follows the last colon. -/
def splitAddr (addr : GoString) : GoString × GoString :=
  ((addr.reverse.dropWhile (· != 0x3a)).drop 1 |>.reverse, (addr.reverse.takeWhile (· != 0x3a)).reverse)

/-- The number a decimal numeral stands for. -/
def decimal : GoString → Int
  | [] => 0
  | c :: cs => if c = 0x2d then -(digits cs) else digits (c :: cs)
where
  digits (cs : GoString) : Int := (cs.foldl (fun n c => 10 * n + (c.toNat - 48)) 0 : Nat)

theorem digit_byte {c : Char} {n : Nat} (h : c ∈ Nat.toDigits 10 n) : 48 ≤ c.toNat ∧ c.toNat ≤ 57 := by
  have := Nat.isDigit_of_mem_toDigits (by decide) (by decide) h
  simp [Char.isDigit, UInt32.le_iff_toNat_le] at this
  exact this

theorem itoa_no_colon (i : Int) : ∀ c ∈ itoa i, c ≠ 0x3a := by
  intro c hc hcc
  subst hcc
  unfold itoa at hc
  rcases List.mem_append.1 hc with h | h
  · split at h
    · simp at h
    · simp at h
  · obtain ⟨x, hx, he⟩ := List.mem_map.1 h
    have h1 := digit_byte hx
    have h2 := congrArg BitVec.toNat he
    simp at h2
    omega

theorem decimal_digits (n : Nat) :
    decimal.digits ((Nat.toDigits 10 n).map fun c => BitVec.ofNat 8 c.toNat) = n := by
  have key : ∀ (l : List Char) (k : Nat), (∀ c ∈ l, c.toNat ≤ 57) →
      (l.map fun c => BitVec.ofNat 8 c.toNat).foldl (fun n (c : Byte) => 10 * n + (c.toNat - 48)) k = Nat.ofDigitChars 10 l k := by
    intro l
    induction l with
    | nil => intro k _; simp
    | cons c l ih =>
      intro k h
      rw [List.map_cons, List.foldl_cons, Nat.ofDigitChars_cons, ih _ fun x hx => h x (List.mem_cons_of_mem _ hx)]
      have := h c (by simp)
      have h2 : (BitVec.ofNat 8 c.toNat).toNat = c.toNat := by
        rw [BitVec.toNat_ofNat]; omega
      rw [h2]
      rfl
  unfold decimal.digits
  rw [key _ _ fun c hc => (digit_byte hc).2, Nat.ofDigitChars_ten_toDigits]

theorem decimal_itoa (i : Int) : decimal (itoa i) = i := by
  unfold itoa
  split
  · rename_i h
    show -(decimal.digits ((Nat.toDigits 10 i.natAbs).map fun c => BitVec.ofNat 8 c.toNat)) = i
    rw [decimal_digits]
    omega
  · rename_i h
    rw [List.nil_append]
    have hne : Nat.toDigits 10 i.natAbs ≠ [] := by
      intro h0
      have := Nat.length_toDigits_pos (b := 10) (n := i.natAbs)
      rw [h0] at this
      simp at this
    cases hd : Nat.toDigits 10 i.natAbs with
    | nil => exact absurd hd hne
    | cons c cs =>
      have hc := digit_byte (c := c) (n := i.natAbs) (by rw [hd]; simp)
      have hn : (BitVec.ofNat 8 c.toNat : Byte) ≠ 0x2d := by
        intro e
        have e2 := congrArg BitVec.toNat e
        rw [BitVec.toNat_ofNat] at e2
        have : (0x2d : Byte).toNat = 45 := rfl
        omega
      have h2 := decimal_digits i.natAbs
      rw [hd, List.map_cons] at h2
      rw [List.map_cons]
      unfold decimal
      dsimp only
      rw [if_neg hn, h2]
      omega

/-- The address dialled consists of the host and the port in decimal: what follows the last colon reads
as the port, what precedes it is the host, also when the host contains colons. -/
theorem C40_address (host : GoString) (port : Int32) :
    (splitAddr (hostPort host port)).1 = host ∧ decimal (splitAddr (hostPort host port)).2 = port.toInt := by
  have hr : (hostPort host port).reverse = (itoa port.toInt).reverse ++ 0x3a :: host.reverse := by
    simp [hostPort]
  have hall : ∀ c ∈ (itoa port.toInt).reverse, (c != 0x3a) = true := by
    intro c hc
    simpa using itoa_no_colon _ c (List.mem_reverse.1 hc)
  unfold splitAddr
  rw [hr, List.dropWhile_append_of_pos hall, List.takeWhile_append_of_pos hall]
  constructor
  · simp
  · simp [decimal_itoa]

/-- So different brokers have different addresses. -/
theorem C40_address_inj {host host' : GoString} {port port' : Int32} (h : hostPort host port = hostPort host' port') :
    host = host' ∧ port = port' := by
  have h1 := C40_address host port
  have h2 := C40_address host' port'
  rw [h] at h1
  exact ⟨h1.1.symm.trans h2.1, Int32.toInt_inj.1 (h1.2.symm.trans h2.2)⟩

example : hostPort (goString "broker-1") 9092 = goString "broker-1:9092" := by decide

/-! ## C41: connection options -/

/-- The options a user of the package can make. -/
inductive UserOption where
  | dialer (d : Option Dialer)
  | tls (t : Option TlsConfig)

def UserOption.opt : UserOption → Opt
  | .dialer d => withDialer d
  | .tls t => withTLS t

/-- Specification: the dialer of the last dialer option, the default for nil and when there is none. -/
def lastDialer (us : List UserOption) : Dialer :=
  match us.reverse.findSome? (fun | .dialer d => some d | .tls _ => none) with
  | some (some d) => d
  | _ => .zero

/-- Specification: the configuration of the last TLS option. -/
def lastTLS (us : List UserOption) : Option TlsConfig :=
  match us.reverse.findSome? (fun | .dialer _ => none | .tls t => some t) with
  | some t => t
  | none => none

/-- The configuration: last option wins, the client id is the default. -/
theorem C41_config (us : List UserOption) :
    buildConfig (us.map UserOption.opt) =
      { clientID := goString "github.com/savaki/kafka", dialer := some (lastDialer us), tlsConfig := lastTLS us } := by
  have key : ∀ us : List UserOption, buildConfig (us.reverse.map UserOption.opt) =
      { clientID := defaultClientID, dialer := some (lastDialer us.reverse), tlsConfig := lastTLS us.reverse } := by
    intro us
    induction us with
    | nil => rfl
    | cons u us ih =>
      have hb : buildConfig ((u :: us).reverse.map UserOption.opt) = u.opt (buildConfig (us.reverse.map UserOption.opt)) := by
        unfold buildConfig
        rw [List.reverse_cons, List.map_append, List.foldl_append]
        rfl
      rw [hb, ih]
      unfold lastDialer lastTLS
      rw [List.reverse_reverse, List.reverse_reverse, List.findSome?_cons, List.findSome?_cons]
      cases u with
      | dialer d => cases d <;> rfl
      | tls t => rfl
  have := key us.reverse
  rwa [List.reverse_reverse] at this

/-- Options are applied in order: later ones see the effect of earlier ones. -/
theorem C41_order (opts : List Opt) (o : Opt) : buildConfig (opts ++ [o]) = o (buildConfig opts) := by
  unfold buildConfig
  rw [List.foldl_append]
  rfl

/-- What an operation of a client with these options may do on the network: dial with the dialer and TLS
configuration of the options, and send requests of API methods with the configured client id. -/
def Allowed (opts : List Opt) : Event → Prop
  | .dial _ mode _ => mode = dialMode (buildConfig opts)
  | .request _ bytes _ => ∃ (b : Broker) (a : Api) (req : a.req.T) (id : Int32),
      b.config.clientID = (buildConfig opts).clientID ∧ bytes = written b a req id
  | .close _ => False

theorem newBroker_does (addr : GoString) (opts : List Opt) : Does (Allowed opts) (newBroker addr opts) := by
  refine Does.newBroker (fun _ => rfl) fun conn id r => ?_
  exact ⟨{ config := buildConfig opts }, .ApiVersions, {}, id, rfl, rfl⟩

theorem dialLoop_does {α : Type} (opts : List Opt) (cb : Handle → M α) (zero : α)
    (hcb : ∀ h : Handle, h.broker.config = buildConfig opts → Does (Allowed opts) (cb h)) :
    ∀ (addrs : List GoString) (last : Option Err), Does (Allowed opts) (dialLoop opts cb zero addrs last) := by
  intro addrs
  induction addrs with
  | nil =>
    intro last
    cases last with
    | none => exact Does.ok zero
    | some e => exact Does.err e
  | cons a addrs ih =>
    intro last env tr
    obtain ⟨ev, h1, h2⟩ := newBroker_does a opts env tr
    unfold dialLoop
    split
    · rename_i h tr1 hb
      obtain ⟨ev', h3, h4⟩ := hcb h (newBroker_config hb) env tr1
      rw [hb] at h1
      dsimp only at h1
      subst h1
      refine ⟨ev ++ ev', by rw [h3, List.append_assoc], fun e he => ?_⟩
      rcases List.mem_append.1 he with he | he
      · exact h2 e he
      · exact h4 e he
    · rename_i e tr1 hb
      obtain ⟨ev', h3, h4⟩ := ih (some e) env tr1
      rw [hb] at h1
      dsimp only at h1
      subst h1
      refine ⟨ev ++ ev', by rw [h3, List.append_assoc], fun e he => ?_⟩
      rcases List.mem_append.1 he with he | he
      · exact h2 e he
      · exact h4 e he
    · rename_i tr1 hb
      rw [hb] at h1
      exact ⟨ev, h1, h2⟩
    · rename_i tr1 hb
      rw [hb] at h1
      exact ⟨ev, h1, h2⟩

/-- The operations of a client, by what they return. -/
inductive ClientOp : Type → Type 1 where
  | metadata (topics : List GoString) : ClientOp MetadataResponse
  | leader (topic : GoString) (partition : Int32) : ClientOp Handle
  | controller : ClientOp Handle
  | coordinator (group : GoString) : ClientOp Handle

def ClientOp.run {α : Type} (c : Client) : ClientOp α → M α
  | .metadata topics => c.metadata topics
  | .leader topic partition => c.dialLeader topic partition
  | .controller => c.dialController
  | .coordinator group => c.dialGroupCoordinator group

theorem metadata_does (c : Client) (topics : List GoString) : Does (Allowed c.opts) (c.metadata topics) := by
  refine dialLoop_does c.opts _ _ (fun h hc => Does.doCall fun id r => ?_) _ _
  exact ⟨h.broker, .Metadata, _, id, by rw [hc], rfl⟩

theorem dialNode_does (c : Client) (m : MetadataResponse) (id : Int32) : Does (Allowed c.opts) (c.dialNode m id) := by
  rcases dialNode_cases c m id with ⟨b, _, _, h⟩ | ⟨_, h⟩
  · rw [h]; exact newBroker_does _ _
  · rw [h]; exact Does.err _

theorem op_does {α : Type} (c : Client) (op : ClientOp α) : Does (Allowed c.opts) (op.run c) := by
  cases op with
  | metadata topics => exact metadata_does c topics
  | controller => exact (metadata_does c []).bind fun m => dialNode_does c m _
  | leader topic partition =>
    refine (metadata_does c [topic]).bind fun m => ?_
    split
    · exact Does.err _
    · split
      · exact Does.err _
      · exact dialNode_does c m _
  | coordinator group =>
    refine Does.bind (dialLoop_does c.opts _ _ (fun h hc => Does.doCall fun id r => ?_) _ _) fun resp => newBroker_does _ _
    exact ⟨h.broker, .FindCoordinator, _, id, by rw [hc], rfl⟩

/-- On the network: every connection of every client operation is dialled with the last dialer and the
last TLS configuration, and every request carries the default client id. -/
theorem C41_effect {α : Type} (us : List UserOption) (bootstrap : List GoString) (op : ClientOp α) (env : Env) (tr : Trace) :
    ∃ ev, (op.run (newClient bootstrap (us.map UserOption.opt)) env tr).2 = tr ++ ev ∧
      (∀ addr mode r, .dial addr mode r ∈ ev →
        mode = match lastTLS us with
          | none => .plain (lastDialer us)
          | some t => .tls (lastDialer us) t) ∧
      ∀ n bytes r, .request n bytes r ∈ ev → bytes.length < 2 ^ 31 →
        ∃ payload p, Wire.splitFrames bytes = some [payload] ∧ Wire.parseRequest payload = some p ∧
          p.clientId = goString "github.com/savaki/kafka" := by
  obtain ⟨ev, h1, h2⟩ := op_does (newClient bootstrap (us.map UserOption.opt)) op env tr
  refine ⟨ev, h1, fun addr mode r h => ?_, fun n bytes r h hl => ?_⟩
  · have h3 : mode = dialMode (buildConfig (us.map UserOption.opt)) := h2 _ h
    rw [h3, C41_config]
    unfold dialMode
    cases lastTLS us <;> rfl
  · obtain ⟨b, a, req, id, h3, rfl⟩ := h2 _ h
    have h4 : b.config.clientID = goString "github.com/savaki/kafka" := by
      rw [h3]
      show (buildConfig (us.map UserOption.opt)).clientID = _
      rw [C41_config]
    obtain ⟨payload, h5, h6⟩ := C19_header b a req id hl (by rw [h4]; decide)
    exact ⟨payload, _, h5, h6, h4⟩

/-- Non-trivial instance: the dialer is replaced by the default again. -/
example : lastDialer [.dialer (some (.user 1)), .tls (some 5), .dialer none] = .zero ∧
    lastTLS [.dialer (some (.user 1)), .tls (some 5), .dialer none] = some 5 := by decide

/-! ## C45: connections left open -/

/-- The connections open after a trace: made and not closed. -/
def openConns (tr : Trace) : List Nat :=
  (List.range (conns tr).length).filter fun n => !tr.contains (.close n)

/-- The full claim: an operation that returns leaves open no connection but that of the broker it
returns, and those open before. -/
def C45_statement : Prop :=
  (∀ (c : Client) (topics : List GoString) (env : Env) (tr tr' : Trace) (m : MetadataResponse),
    c.metadata topics env tr = (.ok m, tr') → openConns tr' = openConns tr) ∧
  (∀ (c : Client) (topic : GoString) (partition : Int32) (env : Env) (tr tr' : Trace) (h : Handle),
    c.dialLeader topic partition env tr = (.ok h, tr') → ∀ n ∈ openConns tr', n ∈ openConns tr ∨ n = h.conn)

/-- It is false: no operation ever closes a connection; all that were made stay open. -/
theorem C45_never {α : Type} (c : Client) (op : ClientOp α) (env : Env) :
    openConns (op.run c env []).2 = List.range (conns (op.run c env []).2).length := by
  obtain ⟨ev, h1, h2⟩ := op_does c op env []
  rw [h1, List.nil_append]
  unfold openConns
  rw [List.filter_eq_self]
  intro n _
  rw [Bool.not_eq_true', ← Bool.not_eq_true, List.contains_iff_mem]
  exact fun h => h2 _ h

/-- In particular `Metadata` leaves a connection open each time it is called. -/
theorem C45_metadata {c : Client} {env : Env} {h : Handle} {tr1 tr' : Trace} {topics : List GoString} {m : MetadataResponse}
    (hf : FirstUp env c.opts [] c.bootstrap h tr1) (e : c.metadata topics env [] = (.ok m, tr')) :
    h.conn ∈ openConns tr' := by
  have h0 := C45_never c (.metadata topics) env
  have hr : (ClientOp.metadata topics).run c env [] = (.ok m, tr') := e
  rw [hr] at h0
  dsimp only at h0
  rw [h0, List.mem_range]
  rw [C39_metadata hf topics] at e
  obtain ⟨_, _, _, rfl, _⟩ := doCall_ok e
  obtain ⟨_, addr, _, _, _, h3⟩ := C39_first hf
  have := (List.getElem?_eq_some_iff.1 h3).1
  rw [conns_append, List.length_append]
  omega

theorem C45_fails : ¬C45_statement := by
  intro hst
  have key : (match (newClient [addrA] []).metadata [] (sampleNet (fun _ => true) 1
      (bytesOf (MetadataResponse.encode 1 sampleMetadata)) []) [] with
    | (.ok _, tr') => decide (openConns tr' = [0])
    | _ => false) = true := by decide +kernel
  split at key
  · rename_i m tr' e
    have h1 := hst.1 _ _ _ _ _ _ e
    rw [of_decide_eq_true key] at h1
    exact absurd h1 (by decide)
  · cases key

/-- What does hold: nothing a client operation does closes or reuses a connection made before it. -/
theorem C45_partial {α : Type} (c : Client) (op : ClientOp α) (env : Env) (tr : Trace) :
    ∀ n ∈ openConns tr, n ∈ openConns (op.run c env tr).2 := by
  intro n hn
  obtain ⟨ev, h1, h2⟩ := op_does c op env tr
  rw [h1]
  unfold openConns at hn ⊢
  rw [List.mem_filter, List.mem_range] at hn ⊢
  refine ⟨by rw [conns_append, List.length_append]; omega, ?_⟩
  rw [Bool.not_eq_true', ← Bool.not_eq_true, List.contains_iff_mem] at hn ⊢
  intro h
  rcases List.mem_append.1 h with h | h
  · exact hn.2 h
  · exact h2 _ h

/-! ## C46: errors reported by a broker -/

/-- The full claim: `NewBroker` fails when the broker answers the version request with an error. -/
def C46_statement : Prop :=
  ∀ (env : Env) (opts : List Opt) (addr : GoString) (resp : ApiVersionsResponse),
    resp.ErrorCode ≠ 0 → (∀ tr n bytes, env.reply tr n bytes = .frame (bytesOf (ApiVersionsResponse.encode 0 resp)) []) →
    ∀ h tr', newBroker addr opts env [] ≠ (.ok h, tr')

/-- It is false: the error code is not looked at.  With no versions listed (as in an UNSUPPORTED_VERSION
reply), `NewBroker` succeeds, and every API is used at version 0. -/
theorem C46_ignored {env : Env} {opts : List Opt} {addr : GoString} (code : Int16)
    (hd : env.dial [] addr = none) (hm : dialMode (buildConfig opts) ≠ .nilDialer)
    (hr : ∀ tr n bytes, env.reply tr n bytes = .frame (bytesOf (ApiVersionsResponse.encode 0 { ErrorCode := code })) []) :
    ∃ h tr', newBroker addr opts env [] = (.ok h, tr') ∧ ∀ a, h.broker.apiVersion.get a = 0 := by
  have hw : bytesOf (ApiVersionsResponse.encode 0 { ErrorCode := code }) = ApiVersionsResponse.wire 0 { ErrorCode := code } :=
    (ApiVersionsResponse.lawful.emits 0 { ErrorCode := code }).bytesOf
  obtain ⟨tr', e⟩ := newBroker_answer (opts := opts) (tr := []) (addr := addr) (v := {}) hd (hr _ _ _) (by
      rw [hw]
      simp [ApiVersionsResponse.wire, Wire.when, Wire.array, Wire.int16, Wire.int32, Wire.bigEndian, Slice.elems]) (by
      constructor
      all_goals simp [FitsAll, FitsSlice, Slice.len, Slice.elems]) ⟨0, rfl⟩ hm Fresh.nil
  refine ⟨_, tr', e, fun a => ?_⟩
  cases a <;> rfl

theorem C46_fails : ¬C46_statement := by
  intro h
  obtain ⟨x, tr', e, _⟩ := C46_ignored (opts := []) (addr := addrA)
    (env := ⟨fun _ _ => none, fun _ _ _ => .frame (bytesOf (ApiVersionsResponse.encode 0 { ErrorCode := 35 })) []⟩)
    35 rfl (by decide) (fun _ _ _ => rfl)
  exact h _ _ _ _ (by decide) (fun _ _ _ => rfl) x tr' e

/-- What does hold: the versions a successful `NewBroker` stores are, for each API the broker lists, in
the broker's and the library's range, and the highest such. -/
theorem C46_partial {addr : GoString} {opts : List Opt} {env : Env} {tr tr' : Trace} {h : Handle}
    (e : newBroker addr opts env tr = (.ok h, tr')) :
    ∃ body stale bytes ks, tr'.getLast? = some (.request h.conn bytes (.frame body stale)) ∧
      (∀ resp : ApiVersionsResponse, ApiVersionsResponse.Fits 0 resp → (body ++ stale).length < 2 ^ 31 →
        body = bytesOf (ApiVersionsResponse.encode 0 resp) → ks = resp.ApiKeys.elems) ∧
      ∀ (p s : List ApiVersionsResponseKey18) (k : ApiVersionsResponseKey18) (a : Api), ks = p ++ k :: s →
        (∀ k' ∈ s, k'.ApiKey ≠ k.ApiKey) → k.ApiKey.toInt = a.protocolKey →
        Common k a (h.broker.apiVersion.get a) ∧ ∀ v, Common k a v → v.toInt ≤ (h.broker.apiVersion.get a).toInt := by
  obtain ⟨h1, _, _, body, stale, resp, d, rfl, hd, hn⟩ := newBroker_ok e
  refine ⟨body, stale, _, resp.ApiKeys.elems, by rw [h1]; simp; rfl, ?_, ?_⟩
  · intro resp' hf hl hb
    have hw : bytesOf (ApiVersionsResponse.encode 0 resp') = ApiVersionsResponse.wire 0 resp' :=
      (ApiVersionsResponse.lawful.emits 0 resp').bytesOf
    have hrd : Reads (ApiVersionsResponse.decode 0 {}) body (ApiVersionsResponse.seen 0 resp' {}) := by
      rw [hb, hw]; exact ApiVersionsResponse.lawful.reads 0 resp' hf {}
    obtain ⟨d', hd'⟩ := reads_body (id := Int32.ofNat (tr.sent tr.dialed + 1)) hrd hl
    have hdec : (Broker.apiVersions { config := buildConfig opts } {}).decode = ApiVersionsResponse.decode 0 {} := rfl
    rw [hdec, hd'] at hd
    cases hd
    simp [ApiVersionsResponse.seen, ApiVersionsResponseKey18.seen, Slice.elems]
  · intro p s k a hks hs hk
    exact C21_mutual resp.ApiKeys _ ⟨_, hn⟩ p s k hks hs a hk

end Kafka.Props
