import Verif.Gen.Broker
import Verif.Gen.Api
import Verif.Broker.Negotiate
import Verif.Message.Wire
/-!
Model of `NewBroker` (gen.broker.go:33-58) and of `client.go`.

The functions are sequential; what they do to the network, and what the network does to them, is a
trace of events.  The network is an arbitrary function of the trace so far (`Env`): it decides whether
a dial succeeds and what becomes of a request.  Of `Conn.Do` only the sequential behaviour appears
here: the concurrent model is in `Verif.Conn`, whose `C32_reply` says that a call returns by decoding
a frame that starts with its correlation id.
-/
namespace Kafka.Client

open Msg

/-- An error of the network. -/
structure NetErr where
  code : Nat
deriving DecidableEq, Repr

/-- What becomes of a request. -/
inductive Reply where
  /-- `Flush` fails -/
  | lost (e : NetErr)
  /-- no reply arrives -/
  | never
  /-- a frame with the request's correlation id and `body` arrives; `stale` is what the buffer of
  `messageLoop` contains behind it -/
  | frame (body stale : List Byte)
  /-- `messageLoop` panics on what arrives: a frame that does not fit into its buffer (C38) -/
  | crash
deriving DecidableEq, Repr

/-- What can be observed on the network. -/
inductive Event where
  | dial (addr : GoString) (mode : DialMode) (result : Option NetErr)
  /-- the connections are numbered in the order of their dials -/
  | request (conn : Nat) (bytes : List Byte) (reply : Reply)
  | close (conn : Nat)
deriving DecidableEq, Repr

abbrev Trace := List Event

/-- The network. -/
structure Env where
  dial : Trace → GoString → Option NetErr
  reply : Trace → Nat → List Byte → Reply

/-- What `fmt.Errorf` puts in front of an error given with `%w`. -/
inductive Prefix where
  /-- gen.conn.go:66 -/
  | dial (addr : GoString)
  /-- gen.broker.go:49, 53 -/
  | create
  /-- client.go:110, 115 -/
  | leader
deriving DecidableEq, Repr

/-- The errors returned. -/
inductive Err where
  | net (e : NetErr)
  | decode (e : DErr)
  /-- gen.broker.go:1588 -/
  | negotiate (e : NegotiateErr)
  /-- client.go:62 -/
  | noNode (id : Int32)
  /-- client.go:157 -/
  | noTopic (name : GoString)
  /-- client.go:148 -/
  | noPartition (partition : Int32) (name : GoString)
  /-- `fmt.Errorf("…: %w", err)` -/
  | wrap (p : Prefix) (e : Err)
deriving DecidableEq, Repr

/-- How a call ends. -/
inductive Out (α : Type) where
  | ok (a : α)
  | err (e : Err)
  | panic
  /-- it never returns -/
  | hang

/-- A call: from the network and the trace before it to its end and the trace after it. -/
abbrev M (α : Type) := Env → Trace → Out α × Trace

/-- `x, err := m(); if err != nil { return err }; f(x)` -/
def M.bind {α β : Type} (m : M α) (f : α → M β) : M β := fun env tr =>
  match m env tr with
  | (.ok a, tr) => f a env tr
  | (.err e, tr) => (.err e, tr)
  | (.panic, tr) => (.panic, tr)
  | (.hang, tr) => (.hang, tr)

/-- `x, err := m(); if err != nil { return fmt.Errorf("…: %w", err) }` -/
def M.wrap {α : Type} (p : Prefix) (m : M α) : M α := fun env tr =>
  match m env tr with
  | (.ok a, tr) => (.ok a, tr)
  | (.err e, tr) => (.err (.wrap p e), tr)
  | (.panic, tr) => (.panic, tr)
  | (.hang, tr) => (.hang, tr)

def M.ok {α : Type} (a : α) : M α := fun _ tr => (.ok a, tr)
def M.err {α : Type} (e : Err) : M α := fun _ tr => (.err e, tr)

/-- The number of connections made so far. -/
def Trace.dialed (tr : Trace) : Nat :=
  tr.countP fun | .dial _ _ none => true | _ => false

/-- The number of requests sent on a connection. -/
def Trace.sent (tr : Trace) (conn : Nat) : Nat :=
  tr.countP fun | .request c _ _ => c == conn | _ => false

/-- gen.conn.go:61-90 `Connect`, with `dial`, 53-59; the result is the number of the connection. -/
def connect (addr : GoString) (opts : List Opt) : M Nat := fun env tr =>
  match dialMode (buildConfig opts) with
  | .nilDialer => (.panic, tr)
  | mode =>
    match env.dial tr addr with
    | some e => (.err (.wrap (.dial addr) (.net e)), tr ++ [.dial addr mode (some e)])
    | none => (.ok tr.dialed, tr ++ [.dial addr mode none])

/-- gen.conn.go:153-174 `Do`, for one caller at a time: correlation ids count from 1. -/
def doCall {α : Type} (conn : Nat) (call : Call α) : M α := fun env tr =>
  let id := Int32.ofNat (tr.sent conn + 1)
  let bytes := bytesOf (call.encode id)
  let reply := env.reply tr conn bytes
  let tr' := tr ++ [.request conn bytes reply]
  match reply with
  | .lost e => (.err (.net e), tr')
  | .never => (.hang, tr')
  | .crash => (.panic, tr')
  | .frame body stale =>
    let frame := Wire.int32 id ++ body
    match call.decode { raw := frame ++ stale, length := frame.length, offset := 4 } with
    | .ok a _ => (.ok a, tr')
    | .err e _ => (.err (.decode e), tr')
    | .panic => (.panic, tr')

/-- gen.broker.go:26-30 `Broker`: version table and configuration, and its connection. -/
structure Handle where
  broker : Broker
  conn : Nat

/-- gen.broker.go:50: a bound on the loop of `matchVersion` that decides whether it ends. -/
def negotiateFuel : Nat := 65537

/-- gen.broker.go:33-58 `NewBroker` -/
def newBroker (addr : GoString) (opts : List Opt) : M Handle :=
  let config := buildConfig opts
  (connect addr opts).bind fun conn =>
  let broker : Broker := { config := config }
  (M.wrap .create (doCall conn (broker.apiVersions {}))).bind fun resp =>
  fun _ tr =>
    match negotiateApiVersions negotiateFuel resp.ApiKeys with
    | none => (.hang, tr)
    | some (.error e) => (.err (.wrap .create (.negotiate e)), tr)
    | some (.ok v) => (.ok { broker := { broker with apiVersion := v }, conn := conn }, tr)

/-- gen.broker.go:61-63 `Broker.Close` -/
def Handle.close (h : Handle) : M Unit := fun _ tr => (.ok (), tr ++ [.close h.conn])

/-- client.go:26-29 `Client` -/
structure Client where
  bootstrap : List GoString
  opts : List Opt

/-- client.go:32-37 `NewClient` -/
def newClient (bootstrap : List GoString) (opts : List Opt) : Client :=
  { bootstrap := bootstrap, opts := opts }

/-- client.go:43-51: the loop of `dialBootstrap`; `last` is `err`, `zero` the value of the variable the
callback assigns to. -/
def dialLoop {α : Type} (opts : List Opt) (callback : Handle → M α) (zero : α) :
    List GoString → Option Err → M α
  | [], none => M.ok zero
  | [], some e => M.err e
  | addr :: addrs, _ => fun env tr =>
    match newBroker addr opts env tr with
    | (.ok h, tr) => callback h env tr
    | (.err e, tr) => dialLoop opts callback zero addrs (some e) env tr
    | (.panic, tr) => (.panic, tr)
    | (.hang, tr) => (.hang, tr)

/-- client.go:40-52 `dialBootstrap`.  The callbacks assign their result to a variable of the caller and
return an error; here they return the result, and `zero` is the variable's value when the callback is
not called. -/
def Client.dialBootstrap {α : Type} (c : Client) (callback : Handle → M α) (zero : α) : M α :=
  dialLoop c.opts callback zero c.bootstrap none

/-- `strconv.Itoa` -/
def itoa (i : Int) : GoString :=
  (if i < 0 then [0x2d] else []) ++ (Nat.toDigits 10 i.natAbs).map fun c => BitVec.ofNat 8 c.toNat

/-- client.go:58, 79: `host + ":" + strconv.Itoa(int(port))` -/
def hostPort (host : GoString) (port : Int32) : GoString := host ++ 0x3a :: itoa port.toInt

/-- client.go:55-63 `dialNode` -/
def Client.dialNode (c : Client) (meta_ : MetadataResponse) (nodeID : Int32) : M Handle :=
  match meta_.Brokers.elems.find? (fun b => b.NodeId == nodeID) with
  | some b => newBroker (hostPort b.Host b.Port) c.opts
  | none => M.err (.noNode nodeID)

/-- client.go:65-81 `dialCoordinator` -/
def Client.dialCoordinator (c : Client) (req : FindCoordinatorRequest) : M Handle :=
  (c.dialBootstrap (fun h => doCall h.conn (h.broker.findCoordinator req)) {}).bind fun resp =>
  newBroker (hostPort resp.Host resp.Port) c.opts

/-- client.go:122-140 `Metadata`; `append` to the nil slice -/
def Client.metadata (c : Client) (topics : List GoString) : M MetadataResponse :=
  c.dialBootstrap (fun h => doCall h.conn (h.broker.metadata
    { Topics := if topics = [] then none else some (topics.map fun t => { Name := t }) })) {}

/-- client.go:84-91 `DialController` -/
def Client.dialController (c : Client) : M Handle :=
  (c.metadata []).bind fun m => c.dialNode m m.ControllerId

/-- client.go:94-99 `DialGroupCoordinator` -/
def Client.dialGroupCoordinator (c : Client) (groupId : GoString) : M Handle :=
  c.dialCoordinator { Key := groupId, KeyType := 0 }

/-- client.go:142-149 `findPartition` -/
def findPartition (topic : MetadataResponseTopic3) (partition : Int32) : Except Err MetadataResponsePartition3 :=
  match topic.Partitions.elems.find? (fun p => p.PartitionIndex == partition) with
  | some p => .ok p
  | none => .error (.noPartition partition topic.Name)

/-- client.go:151-158 `findTopic` -/
def findTopic (meta_ : MetadataResponse) (topicName : GoString) : Except Err MetadataResponseTopic3 :=
  match meta_.Topics.elems.find? (fun t => t.Name == topicName) with
  | some t => .ok t
  | none => .error (.noTopic topicName)

/-- client.go:102-119 `DialLeader` -/
def Client.dialLeader (c : Client) (topic : GoString) (partition : Int32) : M Handle :=
  (c.metadata [topic]).bind fun m =>
  match findTopic m topic with
  | .error e => M.err (.wrap .leader e)
  | .ok t =>
    match findPartition t partition with
    | .error e => M.err (.wrap .leader e)
    | .ok p => c.dialNode m p.LeaderId

end Kafka.Client
