import Verif.Client.Model
/-!
The operations of `client.go` once more, as programs of single operations on the network and on memory, so that
several can run at once.  `Prog.run` runs a program alone; `Client.Model` is what it then does (`prog_run`).

A `Client` has the slices passed to `NewClient`, not copies (client.go:32-37): their elements belong to the caller, too, and are
read where they are used: an address at the beginning of each iteration of the loop of `dialBootstrap` (client.go:43), the
options in each `buildConfig` (gen.broker.go:34, gen.conn.go:62).
-/
namespace Kafka.Client

open Msg

/-- A program: what it does next, and how it goes on. -/
inductive Prog (α : Type) where
  | ret (o : Out α)
  /-- read an element of `c.bootstrap` -/
  | addr (i : Nat) (k : GoString → Prog α)
  /-- read the elements of `c.opts` -/
  | opts (k : List Opt → Prog α)
  | dial (a : GoString) (mode : DialMode) (k : Except NetErr Nat → Prog α)
  /-- send a request, which depends on the id it gets, and wait for the reply -/
  | send (conn : Nat) (bytes : Int32 → List Byte) (k : Int32 → Reply → Prog α)

namespace Prog

/-- Run a program alone, with the elements `c` has. -/
def run {α : Type} (c : Client) : Prog α → M α
  | .ret o => fun _ tr => (o, tr)
  | .addr i k => run c (k (c.bootstrap.getD i []))
  | .opts k => run c (k c.opts)
  | .dial a mode k => fun env tr =>
    match env.dial tr a with
    | some e => run c (k (.error e)) env (tr ++ [.dial a mode (some e)])
    | none => run c (k (.ok tr.dialed)) env (tr ++ [.dial a mode none])
  | .send conn bytes k => fun env tr =>
    let id := Int32.ofNat (tr.sent conn + 1)
    let reply := env.reply tr conn (bytes id)
    run c (k id reply) env (tr ++ [.request conn (bytes id) reply])

/-- `x, err := p(); if err != nil { return err }; f(x)` -/
def bind {α β : Type} (p : Prog α) (f : α → Prog β) : Prog β :=
  match p with
  | .ret (.ok a) => f a
  | .ret (.err e) => .ret (.err e)
  | .ret .panic => .ret .panic
  | .ret .hang => .ret .hang
  | .addr i k => .addr i fun a => (k a).bind f
  | .opts k => .opts fun o => (k o).bind f
  | .dial a mode k => .dial a mode fun r => (k r).bind f
  | .send conn bytes k => .send conn bytes fun id r => (k id r).bind f

/-- `x, err := p(); if err != nil { return fmt.Errorf("…: %w", err) }` -/
def wrap {α : Type} (q : Prefix) (p : Prog α) : Prog α :=
  match p with
  | .ret (.err e) => .ret (.err (.wrap q e))
  | .ret o => .ret o
  | .addr i k => .addr i fun a => (k a).wrap q
  | .opts k => .opts fun o => (k o).wrap q
  | .dial a mode k => .dial a mode fun r => (k r).wrap q
  | .send conn bytes k => .send conn bytes fun id r => (k id r).wrap q

/-- gen.conn.go:61-66 `Connect` -/
def connect (a : GoString) : Prog Nat :=
  .opts fun o =>
  match dialMode (buildConfig o) with
  | .nilDialer => .ret .panic
  | mode => .dial a mode fun
    | .error e => .ret (.err (.wrap (.dial a) (.net e)))
    | .ok n => .ret (.ok n)

/-- gen.conn.go:153-174 `Do` -/
def doCall {α : Type} (conn : Nat) (call : Call α) : Prog α :=
  .send conn (fun id => bytesOf (call.encode id)) fun id reply =>
  match reply with
  | .lost e => .ret (.err (.net e))
  | .never => .ret .hang
  | .crash => .ret .panic
  | .frame body stale =>
    let frame := Wire.int32 id ++ body
    match call.decode { raw := frame ++ stale, length := frame.length, offset := 4 } with
    | .ok a _ => .ret (.ok a)
    | .err e _ => .ret (.err (.decode e))
    | .panic => .ret .panic

/-- gen.broker.go:33-58 `NewBroker` -/
def newBroker (a : GoString) : Prog Handle :=
  .opts fun o =>
  let config := buildConfig o
  (connect a).bind fun conn =>
  let broker : Broker := { config := config }
  (wrap .create (doCall conn (broker.apiVersions {}))).bind fun resp =>
  match negotiateApiVersions negotiateFuel resp.ApiKeys with
  | none => .ret .hang
  | some (.error e) => .ret (.err (.wrap .create (.negotiate e)))
  | some (.ok v) => .ret (.ok { broker := { broker with apiVersion := v }, conn := conn })

/-- What comes after `NewBroker` in the loop of `dialBootstrap`: `callback` on success, `next` on an error. -/
def orElse {α : Type} (p : Prog Handle) (callback : Handle → Prog α) (next : Err → Prog α) : Prog α :=
  match p with
  | .ret (.ok h) => callback h
  | .ret (.err e) => next e
  | .ret .panic => .ret .panic
  | .ret .hang => .ret .hang
  | .addr i k => .addr i fun a => (k a).orElse callback next
  | .opts k => .opts fun o => (k o).orElse callback next
  | .dial a mode k => .dial a mode fun r => (k r).orElse callback next
  | .send conn bytes k => .send conn bytes fun id r => (k id r).orElse callback next

/-- client.go:43-51: the loop of `dialBootstrap`, from element `i`, with `n` elements to come -/
def dialLoop {α : Type} (callback : Handle → Prog α) (zero : α) : Nat → Nat → Option Err → Prog α
  | 0, _, none => .ret (.ok zero)
  | 0, _, some e => .ret (.err e)
  | n + 1, i, _ => .addr i fun a =>
    (newBroker a).orElse callback fun e => dialLoop callback zero n (i + 1) (some e)

/-- client.go:55-63 `dialNode` -/
def dialNode (m : MetadataResponse) (nodeID : Int32) : Prog Handle :=
  match m.Brokers.elems.find? (fun b => b.NodeId == nodeID) with
  | some b => newBroker (hostPort b.Host b.Port)
  | none => .ret (.err (.noNode nodeID))

/-- client.go:122-140 `Metadata`, of a client with `n` bootstrap addresses -/
def metadata (n : Nat) (topics : List GoString) : Prog MetadataResponse :=
  dialLoop (fun h => doCall h.conn (h.broker.metadata
    { Topics := if topics = [] then none else some (topics.map fun t => { Name := t }) })) {} n 0 none

/-- client.go:84-91 `DialController` -/
def dialController (n : Nat) : Prog Handle := (metadata n []).bind fun m => dialNode m m.ControllerId

/-- client.go:65-81, 94-99 `DialGroupCoordinator` -/
def dialGroupCoordinator (n : Nat) (groupId : GoString) : Prog Handle :=
  (dialLoop (fun h => doCall h.conn (h.broker.findCoordinator { Key := groupId, KeyType := 0 })) {} n 0 none).bind fun resp =>
  newBroker (hostPort resp.Host resp.Port)

/-- client.go:102-119 `DialLeader` -/
def dialLeader (n : Nat) (topic : GoString) (partition : Int32) : Prog Handle :=
  (metadata n [topic]).bind fun m =>
  match findTopic m topic with
  | .error e => .ret (.err (.wrap .leader e))
  | .ok t =>
    match findPartition t partition with
    | .error e => .ret (.err (.wrap .leader e))
    | .ok p => dialNode m p.LeaderId

/-! ### Alone, they are the operations of the model -/

theorem run_bind {α β : Type} (c : Client) (f : α → Prog β) :
    ∀ (p : Prog α) (env : Env) (tr : Trace), (p.bind f).run c env tr = M.bind (p.run c) (fun a => (f a).run c) env tr
  | .ret (.ok a), env, tr => rfl
  | .ret (.err e), env, tr => rfl
  | .ret .panic, env, tr => rfl
  | .ret .hang, env, tr => rfl
  | .addr i k, env, tr => run_bind c f (k _) env tr
  | .opts k, env, tr => run_bind c f (k _) env tr
  | .dial a mode k, env, tr => by
    simp only [bind, run, M.bind]
    split <;> exact run_bind c f (k _) env _
  | .send conn bytes k, env, tr => by
    simp only [bind, run, M.bind]
    exact run_bind c f (k _ _) env _

theorem run_wrap {α : Type} (c : Client) (q : Prefix) :
    ∀ (p : Prog α) (env : Env) (tr : Trace), (p.wrap q).run c env tr = M.wrap q (p.run c) env tr
  | .ret (.ok a), env, tr => rfl
  | .ret (.err e), env, tr => rfl
  | .ret .panic, env, tr => rfl
  | .ret .hang, env, tr => rfl
  | .addr i k, env, tr => run_wrap c q (k _) env tr
  | .opts k, env, tr => run_wrap c q (k _) env tr
  | .dial a mode k, env, tr => by
    simp only [wrap, run, M.wrap]
    split <;> exact run_wrap c q (k _) env _
  | .send conn bytes k, env, tr => by
    simp only [wrap, run, M.wrap]
    exact run_wrap c q (k _ _) env _

theorem run_orElse {α : Type} (c : Client) (callback : Handle → Prog α) (next : Err → Prog α) :
    ∀ (p : Prog Handle) (env : Env) (tr : Trace), (p.orElse callback next).run c env tr =
      match p.run c env tr with
      | (.ok h, tr) => (callback h).run c env tr
      | (.err e, tr) => (next e).run c env tr
      | (.panic, tr) => (.panic, tr)
      | (.hang, tr) => (.hang, tr)
  | .ret (.ok a), env, tr => rfl
  | .ret (.err e), env, tr => rfl
  | .ret .panic, env, tr => rfl
  | .ret .hang, env, tr => rfl
  | .addr i k, env, tr => run_orElse c callback next (k _) env tr
  | .opts k, env, tr => run_orElse c callback next (k _) env tr
  | .dial a mode k, env, tr => by
    simp only [orElse, run]
    split <;> exact run_orElse c callback next (k _) env _
  | .send conn bytes k, env, tr => by
    simp only [orElse, run]
    exact run_orElse c callback next (k _ _) env _

theorem run_connect (c : Client) (a : GoString) (env : Env) (tr : Trace) :
    (connect a).run c env tr = Client.connect a c.opts env tr := by
  simp only [connect, run, Client.connect]
  cases dialMode (buildConfig c.opts) with
  | nilDialer => rfl
  | plain d => simp only [run]; cases env.dial tr a <;> rfl
  | tls d t => simp only [run]; cases env.dial tr a <;> rfl

theorem run_doCall {α : Type} (c : Client) (conn : Nat) (call : Call α) (env : Env) (tr : Trace) :
    (doCall conn call).run c env tr = Client.doCall conn call env tr := by
  simp only [doCall, run, Client.doCall]
  cases env.reply tr conn (bytesOf (call.encode (Int32.ofNat (Trace.sent tr conn + 1)))) with
  | frame body stale =>
    dsimp only
    cases call.decode _ <;> rfl
  | _ => rfl

theorem run_newBroker (c : Client) (a : GoString) (env : Env) (tr : Trace) :
    (newBroker a).run c env tr = Client.newBroker a c.opts env tr := by
  unfold newBroker Client.newBroker
  simp only [run, run_bind]
  unfold M.bind
  rw [run_connect]
  cases Client.connect a c.opts env tr with
  | mk o tr =>
    cases o with
    | ok conn =>
      dsimp only
      rw [run_bind]
      unfold M.bind
      rw [run_wrap]
      have h : (M.wrap .create ((doCall conn (Broker.apiVersions { config := buildConfig c.opts } {})).run c)) =
          M.wrap .create (Client.doCall conn (Broker.apiVersions { config := buildConfig c.opts } {})) := by
        congr 1
        funext env tr
        exact run_doCall c conn _ env tr
      rw [h]
      cases M.wrap .create (Client.doCall conn (Broker.apiVersions { config := buildConfig c.opts } {})) env tr with
      | mk o tr =>
        cases o with
        | ok resp =>
          dsimp only
          cases negotiateApiVersions negotiateFuel resp.ApiKeys with
          | none => rfl
          | some r => cases r <;> rfl
        | _ => rfl
    | _ => rfl

theorem run_dialLoop {α : Type} (c : Client) {callback : Handle → Prog α} {callback' : Handle → M α} (zero : α)
    (hc : ∀ h env tr, (callback h).run c env tr = callback' h env tr) :
    ∀ (n i : Nat) (last : Option Err) (env : Env) (tr : Trace), i + n = c.bootstrap.length →
      (dialLoop callback zero n i last).run c env tr = Client.dialLoop c.opts callback' zero (c.bootstrap.drop i) last env tr
  | 0, i, none, env, tr, h => by rw [List.drop_eq_nil_of_le (by omega)]; rfl
  | 0, i, some e, env, tr, h => by rw [List.drop_eq_nil_of_le (by omega)]; rfl
  | n + 1, i, last, env, tr, h => by
    have hi : i < c.bootstrap.length := by omega
    rw [List.drop_eq_getElem_cons hi]
    simp only [dialLoop, run, Client.dialLoop]
    rw [run_orElse, run_newBroker]
    have hg : c.bootstrap.getD i [] = c.bootstrap[i] := by simp [List.getD, List.getElem?_eq_getElem hi]
    rw [hg]
    cases Client.newBroker c.bootstrap[i] c.opts env tr with
    | mk o tr =>
      cases o with
      | ok hd => exact hc hd env tr
      | err e => exact run_dialLoop c zero hc n (i + 1) (some e) env tr (by omega)
      | _ => rfl

theorem run_dialNode (c : Client) (m : MetadataResponse) (id : Int32) (env : Env) (tr : Trace) :
    (dialNode m id).run c env tr = c.dialNode m id env tr := by
  unfold dialNode Client.dialNode
  cases m.Brokers.elems.find? (fun b => b.NodeId == id) with
  | none => rfl
  | some b => exact run_newBroker c _ env tr

theorem run_metadata (c : Client) (topics : List GoString) (env : Env) (tr : Trace) :
    (metadata c.bootstrap.length topics).run c env tr = c.metadata topics env tr :=
  run_dialLoop c _ (fun _ env tr => run_doCall c _ _ env tr) _ 0 none env tr (by omega)

theorem run_dialController (c : Client) (env : Env) (tr : Trace) :
    (dialController c.bootstrap.length).run c env tr = c.dialController env tr := by
  unfold dialController Client.dialController
  rw [run_bind]
  unfold M.bind
  rw [run_metadata]
  cases c.metadata [] env tr with
  | mk o tr =>
    cases o with
    | ok m => exact run_dialNode c m _ env tr
    | _ => rfl

theorem run_dialLeader (c : Client) (topic : GoString) (partition : Int32) (env : Env) (tr : Trace) :
    (dialLeader c.bootstrap.length topic partition).run c env tr = c.dialLeader topic partition env tr := by
  unfold dialLeader Client.dialLeader
  rw [run_bind]
  unfold M.bind
  rw [run_metadata]
  cases c.metadata [topic] env tr with
  | mk o tr =>
    cases o with
    | ok m =>
      dsimp only
      cases findTopic m topic with
      | error e => rfl
      | ok t =>
        dsimp only
        cases findPartition t partition with
        | error e => rfl
        | ok p => exact run_dialNode c m _ env tr
    | _ => rfl

theorem run_dialGroupCoordinator (c : Client) (group : GoString) (env : Env) (tr : Trace) :
    (dialGroupCoordinator c.bootstrap.length group).run c env tr = c.dialGroupCoordinator group env tr := by
  unfold dialGroupCoordinator Client.dialGroupCoordinator Client.dialCoordinator
  rw [run_bind]
  unfold M.bind
  rw [run_dialLoop c (callback' := fun h => Client.doCall h.conn (h.broker.findCoordinator { Key := group, KeyType := 0 })) _
    (fun _ env tr => run_doCall c _ _ env tr) _ 0 none env tr (by omega)]
  unfold Client.dialBootstrap
  rw [List.drop_zero]
  cases Client.dialLoop c.opts (fun h => Client.doCall h.conn (h.broker.findCoordinator { Key := group, KeyType := 0 })) {} c.bootstrap
    none env tr with
  | mk o tr =>
    cases o with
    | ok resp => exact run_newBroker c _ env tr
    | _ => rfl

end Prog

end Kafka.Client
