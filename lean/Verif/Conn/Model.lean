import Verif.Ring.Buffer
import Verif.Message.Encoder
import Verif.Gen.Model.Header
/-!
Model of `gen.conn.go`: a connection with any number of goroutines calling `Do` and `Close`, the
goroutines `messageLoop` and `readLoop`, and the ring buffer between those two (the machine of
Verif.Ring.Buffer, step by step).

One step is one atomic operation, one lock or unlock, one channel operation, one map access, one
`raw.Read` or `raw.Write`; purely local computation belongs to the step before or after it.

Simplifications:
* `bufio.Writer` between encoder and `raw` passes bytes on in order, in pieces of any size, at any
  time between the first write and the end of `Flush`; its errors, and the encoder's, are sticky
  (`bufio.Writer` and C12), so that after a failed `raw.Write` nothing is written any more.
* `raw` is any `net.Conn`: `Read` returns any bytes or an error at any time, `Write` accepts any part
  of its argument and may fail at any time; after `raw.Close` both fail.
* `readLock` and `writeLock` are mutual exclusion locks without a queue: any waiting goroutine may
  get them.
* `ReadN(buffer, size)` with `size` greater than the buffer panics when it assigns to the first element
  that does not exist (`full`).  The machine of the ring buffer, which knows nothing of this, is given one
  element more.
* Printing to standard output is left out here; see Verif.Conn.Print.

The fields marked *history* do not exist in the code, and no step depends on them.
-/
namespace Kafka.Conn

open Kafka

/-- The sizes used by the code. -/
structure Params where
  /-- size of the ring buffer -/
  ring : Nat
  /-- size of the buffers of `readLoop` and `messageLoop` -/
  buf : Nat

/-- gen.conn.go:71, 95 and 111: `5e6` and `2e6` -/
def actual : Params := ⟨5000000, 2000000⟩

/-- The arguments of `Do`: the bytes `encode` writes for a correlation id, and whether `decode`
panics.  (What `decode` returns is a function of the decoder it is given.) -/
structure Job where
  frame : Int32 → List Byte
  panics : Decoder → Bool

/-- What `Do` returned. -/
inductive Outcome where
  /-- the error of `Flush` -/
  | flushErr (e : WErr)
  /-- what `decode` returned when given this decoder -/
  | reply (d : Decoder)

/-- Where a call of `Do` (gen.conn.go:153-174) is: before the operation named. -/
inductive CPc where
  /-- not called -/
  | absent
  /-- line 154, `atomic.AddInt32` -/
  | add
  /-- line 160, `readLock.Lock` -/
  | rlock
  /-- line 161, assignment to the map -/
  | insert
  /-- line 162, `readLock.Unlock` -/
  | runlock
  /-- line 164, `writeLock.Lock` -/
  | wlock
  /-- line 165, start of `encode` -/
  | encode
  /-- lines 165-166, `encode` and `Flush`; bytes not yet accepted by `raw` -/
  | writing (rest : List Byte)
  /-- line 167, `writeLock.Unlock`; the result of `Flush` -/
  | wunlock (err : Option WErr)
  /-- line 173, receive from `req.reply` -/
  | recv
  /-- returned -/
  | done (o : Outcome)

/-- A call of `Do`. -/
structure CState where
  pc : CPc := .absent
  job : Job := ⟨fun _ => [], fun _ => false⟩
  /-- `correlationID` -/
  id : Int32 := 0
  /-- the buffer, of size one, of `req.reply` -/
  chan : Option Decoder := none
  /-- *history*: number of `AddInt32` operations up to and including that of this call -/
  seq : Nat := 0
  /-- *history*: bytes of this call accepted by `raw` -/
  sent : List Byte := []
  /-- *history*: number of times `decode` has been run -/
  decodes : Nat := 0

/-- Where `messageLoop` (gen.conn.go:107-148) is. -/
inductive MPc where
  /-- line 116, `select` on `ctx.Done()` -/
  | top
  /-- line 124, in `ReadN(buffer, 4)` -/
  | inHead
  /-- line 130, in `ReadN(buffer, size)` -/
  | inBody (size : Int)
  /-- line 139, `readLock.Lock` -/
  | rlock (id : Int32) (d : Decoder)
  /-- line 140, look up -/
  | lookup (id : Int32) (d : Decoder)
  /-- line 141, delete -/
  | delete (id : Int32) (d : Decoder) (c : Option Nat)
  /-- line 142, `readLock.Unlock` -/
  | runlock (d : Decoder) (c : Option Nat)
  /-- line 145, `req.decode(d)` -/
  | decode (d : Decoder) (c : Nat)
  /-- line 145, send to `req.reply` -/
  | send (d : Decoder) (c : Nat)
  /-- returned, `doneMessage` closed -/
  | exited

/-- Where `readLoop` (gen.conn.go:92-105) is. -/
inductive LPc where
  /-- line 97, `raw.Read` -/
  | read
  /-- line 103, in `WriteN` -/
  | inWrite
  /-- returned, `doneRead` closed -/
  | exited
deriving DecidableEq

/-- Where a call of `Close` (gen.conn.go:176-183) is. -/
inductive XPc where
  | absent
  /-- line 177 -/
  | cancel
  /-- line 178 -/
  | rbClose
  /-- line 179 -/
  | rawClose
  /-- line 180 -/
  | waitMessage
  /-- line 181 -/
  | waitRead
  | done
deriving DecidableEq

/-- Who holds `readLock`. -/
inductive Owner where
  | call (c : Nat)
  | loop
deriving DecidableEq

/-- State of a connection (gen.conn.go:32-51), of its goroutines and of the calls of `Do`, whose functions (gen.conn.go:150-151) are in
their `Job`, and history. -/
structure State where
  /-- `c.id` -/
  id : Int32 := 0
  /-- `c.requests`; the number stands for the request of that call of `Do` -/
  requests : Int32 → Option Nat := fun _ => none
  readLock : Option Owner := none
  writeLock : Option Nat := none
  /-- the error of the encoder or of its `bufio.Writer` -/
  werr : Option WErr := none
  /-- the connection's context is done -/
  cancelled : Bool := false
  rawClosed : Bool := false
  /-- `c.rb` -/
  ring : Ring.State := Ring.init
  calls : Nat → CState := fun _ => {}
  mpc : MPc := .top
  /-- `buffer` of `messageLoop` outside `ReadN` -/
  buf : List Byte := []
  lpc : LPc := .read
  closers : Nat → XPc := fun _ => .absent
  /-- a goroutine panicked, which ends the program -/
  crashed : Bool := false
  /-- *history*: everything `raw.Write` accepted -/
  wire : List Byte := []
  /-- *history*: everything `raw.Read` returned without an error -/
  received : List Byte := []
  /-- *history*: what `raw.Read` returned along with an error -/
  lost : List Byte := []
  /-- *history*: number of `AddInt32` operations -/
  count : Nat := 0
  /-- *history*: the calls that started writing, in order -/
  started : List Nat := []
  /-- *history*: the frames `messageLoop` has read, in order -/
  frames : List (List Byte) := []

/-- gen.conn.go:61-90 `Connect`, once dialled: the buffer of `messageLoop` is zero. -/
def init (P : Params) : State := { buf := List.replicate P.buf 0 }

/-- What happens next. -/
inductive Act where
  /-- call number `c` of `Do` is made -/
  | start (c : Nat) (job : Job)
  /-- the next operation of call `c`, other than `raw.Write` -/
  | call (c : Nat)
  /-- within call `c`, `raw.Write` accepts `k` bytes -/
  | write (c k : Nat)
  /-- within call `c`, `raw.Write` accepts `k` bytes and fails -/
  | writeErr (c k : Nat) (e : WErr)
  /-- the next operation of `messageLoop` outside `ReadN` -/
  | message
  /-- `raw.Read` returns `data`, and `readLoop` calls `WriteN` -/
  | read (data : List Byte)
  /-- `raw.Read` fails, having returned `data` along with the error (io.Reader permits it, and a TLS connection
  returns the last bytes together with `io.EOF`) -/
  | readErr (data : List Byte)
  /-- `readLoop` returns from `WriteN` -/
  | readNext
  /-- an operation within `ReadN` or `WriteN`, or a hand-over between the two -/
  | ring (a : Ring.Action)
  /-- the next operation of call `k` of `Close` (the first makes the call) -/
  | close (k : Nat)

/-- Update of call `c`. -/
def State.set (s : State) (c : Nat) (x : CState) : State :=
  { s with calls := fun j => if j = c then x else s.calls j }

/-- Update of the map. -/
def upd (m : Int32 → Option Nat) (id : Int32) (v : Option Nat) : Int32 → Option Nat :=
  fun j => if j = id then v else m j

/-- gen.conn.go:153-174 `Do`: the next operation of call `c`, `none` if it blocks. -/
def callStep (s : State) (c : Nat) : Option State :=
  let x := s.calls c
  match x.pc with
  | .absent => none
  | .add => some ({ s with id := s.id + 1, count := s.count + 1 }.set c
      { x with id := s.id + 1, seq := s.count + 1, pc := .rlock })
  | .rlock =>
    match s.readLock with
    | none => some ({ s with readLock := some (.call c) }.set c { x with pc := .insert })
    | some _ => none
  | .insert => some ({ s with requests := upd s.requests x.id (some c) }.set c { x with pc := .runlock })
  | .runlock => some ({ s with readLock := none }.set c { x with pc := .wlock })
  | .wlock =>
    match s.writeLock with
    | none => some ({ s with writeLock := some c }.set c { x with pc := .encode })
    | some _ => none
  | .encode =>
    match s.werr with
    | some e => some (s.set c { x with pc := .wunlock (some e) })
    | none => some ({ s with started := s.started ++ [c] }.set c { x with pc := .writing (x.job.frame x.id) })
  | .writing [] => some (s.set c { x with pc := .wunlock none })
  | .writing (_ :: _) => none
  | .wunlock none => some ({ s with writeLock := none }.set c { x with pc := .recv })
  | .wunlock (some e) => some ({ s with writeLock := none }.set c { x with pc := .done (.flushErr e) })
  | .recv =>
    match x.chan with
    | none => none
    | some d => some (s.set c { x with chan := none, pc := .done (.reply d) })
  | .done _ => none

/-- gen.conn.go:124-127: the size in the first four bytes of the buffer (`none`: panic) -/
def headSize (buf : List Byte) : Option Int :=
  match Dec.int32 { raw := buf, length := 4, offset := 0 } with
  | .ok v _ => some v.toInt
  | .err _ _ => some 0
  | .panic => none

/-- The slice for a call `ReadN(buffer, n)`: the buffer, and an element that it does not have if `n` is
greater than its length. -/
def room (buf : List Byte) (n : Int) : List Byte := if n > buf.length then buf ++ [0] else buf

/-- gen.conn.go:130: the call `ReadN(buffer, n)` -/
def readN (P : Params) (s : State) (n : Int) : Option State :=
  (Ring.step P.ring (.callR (room s.buf n) (min n.toNat (s.buf.length + 1))) s.ring).map fun r => { s with ring := r }

/-- ring/buffer.go:146: in `ReadN` called by `messageLoop`, an assignment to an element the buffer does not have -/
def full (s : State) : Bool := decide (s.ring.rpc = .get) && decide (s.buf.length ≤ s.ring.ri)

/-- gen.conn.go:107-148 `messageLoop`: the next operation outside `ReadN`, `none` if it blocks. -/
def messageStep (P : Params) (s : State) : Option State :=
  match s.mpc with
  | .top =>
    if s.cancelled then some { s with mpc := .exited }
    else (Ring.step P.ring (.callR s.buf (min 4 s.buf.length)) s.ring).map fun r => { s with mpc := .inHead, ring := r }
  | .inHead =>
    if s.ring.rpc = .idle then
      match headSize s.ring.rdst with
      | none => some { s with crashed := true }
      | some size => readN P { s with buf := s.ring.rdst, mpc := .inBody size } size
    else none
  | .inBody size =>
    if s.ring.rpc = .idle then
      let buf := s.ring.rdst
      if size > s.buf.length then some { s with crashed := true } -- does not happen, `full` comes first
      else
        let s := { s with buf := buf, frames := s.frames ++ [buf.take size.toNat] }
        match Msg.ResponseHeader.decode 1 {} { raw := buf, length := size, offset := 0 } with
        | .ok resp d => some { s with mpc := .rlock resp.CorrelationId d }
        | .err _ _ => some { s with mpc := .top }
        | .panic => some { s with crashed := true }
    else none
  | .rlock id d =>
    match s.readLock with
    | none => some { s with readLock := some .loop, mpc := .lookup id d }
    | some _ => none
  | .lookup id d => some { s with mpc := .delete id d (s.requests id) }
  | .delete id d c => some { s with requests := upd s.requests id none, mpc := .runlock d c }
  | .runlock d c =>
    let s := { s with readLock := none }
    match c with
    | none => some { s with mpc := .top }
    | some c => some { s with mpc := .decode d c }
  | .decode d c =>
    let x := s.calls c
    if x.job.panics d then some { s with crashed := true }
    else some ({ s with mpc := .send d c }.set c { x with decodes := x.decodes + 1 })
  | .send d c =>
    let x := s.calls c
    match x.chan with
    | some _ => none
    | none => some ({ s with mpc := .top }.set c { x with chan := some d })
  | .exited => none

/-- gen.conn.go:176-183 `Close`: the next operation, `none` if it blocks. -/
def closeStep (P : Params) (s : State) (k : Nat) : Option State :=
  let to (s : State) (pc : XPc) : State := { s with closers := fun j => if j = k then pc else s.closers j }
  match s.closers k with
  | .absent => some (to s .cancel)
  | .cancel => some (to { s with cancelled := true } .rbClose)
  | .rbClose => (Ring.step P.ring .close s.ring).map fun r => to { s with ring := r } .rawClose
  | .rawClose => some (to { s with rawClosed := true } .waitMessage)
  | .waitMessage =>
    match s.mpc with
    | .exited => some (to s .waitRead)
    | _ => none
  | .waitRead =>
    match s.lpc with
    | .exited => some (to s .done)
    | _ => none
  | .done => none

/-- The operations within `ReadN` and `WriteN`. -/
def inRing : Ring.Action → Bool
  | .w | .r | .handR | .handW => true
  | _ => false

/-- The machine: `none` if the action is not possible. -/
def step (P : Params) (a : Act) (s : State) : Option State :=
  if s.crashed then none else
  match a with
  | .start c job =>
    match (s.calls c).pc with
    | .absent => some (s.set c { s.calls c with pc := .add, job := job })
    | _ => none
  | .call c => callStep s c
  | .write c k =>
    match (s.calls c).pc with
    | .writing rest =>
      if 0 < k ∧ k ≤ rest.length ∧ s.rawClosed = false then
        some ({ s with wire := s.wire ++ rest.take k }.set c
          { s.calls c with pc := .writing (rest.drop k), sent := (s.calls c).sent ++ rest.take k })
      else none
    | _ => none
  | .writeErr c k e =>
    match (s.calls c).pc with
    | .writing rest =>
      if rest ≠ [] ∧ k ≤ rest.length ∧ (s.rawClosed → k = 0) then
        some ({ s with wire := s.wire ++ rest.take k, werr := some e }.set c
          { s.calls c with pc := .wunlock (some e), sent := (s.calls c).sent ++ rest.take k })
      else none
    | _ => none
  | .message => messageStep P s
  | .read data =>
    if s.lpc = .read ∧ s.rawClosed = false ∧ data.length ≤ P.buf then
      (Ring.step P.ring (.callW data data.length) s.ring).map fun r =>
        { s with ring := r, lpc := .inWrite, received := s.received ++ data }
    else none
  | .readErr data =>
    if s.lpc = .read ∧ data.length ≤ P.buf ∧ (s.rawClosed → data = []) then
      some { s with lpc := .exited, lost := s.lost ++ data }
    else none
  | .readNext => if s.lpc = .inWrite ∧ s.ring.wpc = .idle then some { s with lpc := .read } else none
  | .ring a =>
    if a = .r ∧ full s = true then some { s with crashed := true }
    else if inRing a then (Ring.step P.ring a s.ring).map fun r => { s with ring := r }
    else none
  | .close k => closeStep P s k

/-- Run a schedule. -/
def run (P : Params) : List Act → State → Option State
  | [], s => some s
  | a :: as, s => (step P a s).bind (run P as)

/-- States reachable by schedules all of whose actions satisfy `ok`. -/
inductive Reach (P : Params) (ok : State → Act → Prop) : State → Prop where
  | init : Reach P ok (init P)
  | step {s s' : State} (a : Act) : Reach P ok s → ok s a → step P a s = some s' → Reach P ok s'

/-- Any schedule. -/
def Any (_ : State) (_ : Act) : Prop := True

end Kafka.Conn
