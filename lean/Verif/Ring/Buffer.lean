import Verif.Base.Go
/-!
Model of `ring/buffer.go`: one reader and one writer goroutine as a state machine.

One step of the machine is one atomic operation (load, store, compare-and-swap), one access
to the storage, one channel hand-over or one `ctx.Done()` branch of a `select`; purely local
computation belongs to the step before it.  A schedule is a list of `Action`s.

The size of the buffer is `N`.  Positions are natural numbers: the code uses int32, but they
stay below the size (`C31`), so `pos++` cannot overflow.  A negative count behaves as 0 in
both calls (no iteration, `n > wrote+1` false, `read > 0` false), so counts are natural
numbers.

The fields marked *history* do not exist in the code, and no step depends on them.
-/
namespace Kafka.Ring

open Kafka

/-- Where the writer goroutine is: outside `WriteN` or before the operation named. -/
inductive WPc where
  /-- not in a call -/
  | idle
  /-- line 90, load of `r.next` -/
  | load1
  /-- line 91, load of `r.start` -/
  | load2
  /-- line 96, write of one byte to the storage -/
  | put
  /-- line 102, store of `r.next` -/
  | store
  /-- line 105, `Release`: compare-and-swap -/
  | relCas
  /-- line 105, `Release`: select -/
  | relRecv
  /-- line 108, load of `r.start` -/
  | reload
  /-- line 110, `Wait`: compare-and-swap -/
  | waitCas
  /-- line 110, `Wait`: select -/
  | waitSend
  /-- line 115, store of `r.next` -/
  | fstore
  /-- line 120, `Release`: compare-and-swap -/
  | frelCas
  /-- line 120, `Release`: select -/
  | frelRecv
deriving DecidableEq, Repr

/-- Where the reader goroutine is. -/
inductive RPc where
  /-- not in a call -/
  | idle
  /-- line 128, load of `r.start` -/
  | load1
  /-- line 129, load of `r.next` -/
  | load2
  /-- line 135, store of `r.start` -/
  | store
  /-- line 137, `Release`: compare-and-swap -/
  | relCas
  /-- line 137, `Release`: select -/
  | relRecv
  /-- line 140, load of `r.next` -/
  | reload
  /-- line 142, `Wait`: compare-and-swap -/
  | waitCas
  /-- line 142, `Wait`: select -/
  | waitSend
  /-- line 146, read of one byte of the storage -/
  | get
  /-- line 151, store of `r.start` -/
  | fstore
  /-- line 153, `Release`: compare-and-swap -/
  | frelCas
  /-- line 153, `Release`: select -/
  | frelRecv
deriving DecidableEq, Repr

/-- State of the buffer (ring/buffer.go:57-66, its locks 24-54, `Close` 81-84), of the two goroutines, and history. -/
structure State where
  /-- `r.data` -/
  mem : Nat → Byte := fun _ => 0
  /-- `r.next` -/
  next : Nat := 0
  /-- `r.start` -/
  start : Nat := 0
  /-- `r.readLock.set` (the reader waits on it, the writer releases it) -/
  rset : Bool := false
  /-- `r.writeLock.set` (the writer waits on it, the reader releases it) -/
  wset : Bool := false
  /-- `r.ctx` is done -/
  closed : Bool := false
  wpc : WPc := .idle
  /-- arguments of `WriteN` -/
  wdata : List Byte := []
  wn : Nat := 0
  /-- locals of `WriteN` -/
  wi : Nat := 0
  wpos : Nat := 0
  wstart : Nat := 0
  wwrote : Nat := 0
  rpc : RPc := .idle
  /-- arguments of `ReadN` -/
  rdst : List Byte := []
  rn : Nat := 0
  /-- locals of `ReadN` -/
  ri : Nat := 0
  rpos : Nat := 0
  rnext : Nat := 0
  rread : Nat := 0
  /-- *history*: all bytes put into the storage -/
  put : List Byte := []
  /-- *history*: all bytes read from the storage -/
  got : List Byte := []
  /-- *history*: number of bytes put when `r.next` was last stored -/
  pub : Nat := 0
  /-- *history*: number of bytes read when `r.start` was last stored -/
  rel : Nat := 0
  /-- *history*: value of `rel` when the writer last loaded `r.start` -/
  wrel : Nat := 0
  /-- *history*: value of `pub` when the reader last loaded `r.next` -/
  rpub : Nat := 0
  /-- *history*: the writer has returned from `Wait` and not loaded `r.start` since -/
  wres : Bool := false
  /-- *history*: the reader has returned from `Wait` and not loaded `r.next` since -/
  rres : Bool := false
  /-- *history*: the bytes passed to all `WriteN` calls so far -/
  given : List Byte := []
  /-- *history*: the bytes returned by all completed `ReadN` calls so far -/
  taken : List Byte := []
  /-- *history*: the destination of the current `ReadN` as it was at the call -/
  rorig : List Byte := []

/-- ring/buffer.go:157-163 `incr` -/
def incr (N pos : Nat) : Nat := if pos + 1 = N then 0 else pos + 1

/-- ring/buffer.go:69-79 `New` -/
def init : State := {}

/-- What happens next. -/
inductive Action where
  /-- the writer goroutine calls `WriteN(data, n)` -/
  | callW (data : List Byte) (n : Nat)
  /-- the reader goroutine calls `ReadN(dst, n)` -/
  | callR (dst : List Byte) (n : Nat)
  /-- the writer's next operation -/
  | w
  /-- the reader's next operation -/
  | r
  /-- hand-over on `readLock.ch`: reader in `Wait`, writer in `Release` -/
  | handR
  /-- hand-over on `writeLock.ch`: writer in `Wait`, reader in `Release` -/
  | handW
  /-- somebody calls `Close` -/
  | close
deriving DecidableEq, Repr

/-- ring/buffer.go:95: the loop condition of `WriteN` -/
def wLoop (s : State) : State :=
  if s.wi < s.wn then { s with wpc := .put } else { s with wpc := .fstore }

/-- The writer continues after line 105. -/
def wReleased (s : State) : State := { s with wpc := .reload, wwrote := s.wi }

/-- The writer continues after line 110. -/
def wWaited (s : State) : State := wLoop { s with wi := s.wi + 1, wres := true }

/-- `WriteN` returns. -/
def wReturn (s : State) : State := { s with wpc := .idle }

/-- ring/buffer.go:88-122 `WriteN`: the next operation, `none` if there is none or it
blocks. -/
def wStep (N : Nat) (s : State) : Option State :=
  match s.wpc with
  | .idle => none
  | .load1 => some { s with wpos := s.next, wpc := .load2 }
  | .load2 =>
    some (wLoop { s with wstart := s.start, wrel := s.rel, wres := false, wwrote := 0, wi := 0 })
  | .put =>
    let b := s.wdata.getD s.wi 0
    let pos := incr N s.wpos
    let s' := { s with mem := fun j => if j = s.wpos then b else s.mem j, put := s.put ++ [b], wpos := pos }
    some (if incr N pos = s.wstart then { s' with wpc := .store } else wLoop { s' with wi := s.wi + 1 })
  | .store => some { s with next := s.wpos, pub := s.put.length, wpc := .relCas }
  | .relCas => some (if s.rset then { s with rset := false, wpc := .relRecv } else wReleased s)
  | .relRecv => if s.closed then some (wReleased s) else none
  | .reload =>
    let s' := { s with wstart := s.start, wrel := s.rel, wres := false }
    some (if incr N s.wpos = s.start then { s' with wpc := .waitCas } else wLoop { s' with wi := s.wi + 1 })
  | .waitCas => some (if s.wset then wWaited s else { s with wset := true, wpc := .waitSend })
  | .waitSend => if s.closed then some (wWaited s) else none
  | .fstore =>
    let s' := { s with next := s.wpos, pub := s.put.length }
    some (if s.wn > s.wwrote + 1 then { s' with wpc := .frelCas } else wReturn s')
  | .frelCas => some (if s.rset then { s with rset := false, wpc := .frelRecv } else wReturn s)
  | .frelRecv => if s.closed then some (wReturn s) else none

/-- ring/buffer.go:133-134: the loop condition of `ReadN` and the first test of its body -/
def rLoop (s : State) : State :=
  if s.ri < s.rn then
    if s.rpos = s.rnext then { s with rpc := .store } else { s with rpc := .get }
  else { s with rpc := .fstore }

/-- The reader continues after line 142. -/
def rWaited (s : State) : State := { s with rpc := .get, rres := true }

/-- `ReadN` returns. -/
def rReturn (s : State) : State := { s with rpc := .idle, taken := s.taken ++ s.rdst.take s.rn }

/-- ring/buffer.go:126-155 `ReadN`: the next operation, `none` if there is none or it blocks. -/
def rStep (N : Nat) (s : State) : Option State :=
  match s.rpc with
  | .idle => none
  | .load1 => some { s with rpos := s.start, rpc := .load2 }
  | .load2 => some (rLoop { s with rnext := s.next, rpub := s.pub, rres := false, rread := 0, ri := 0 })
  | .store =>
    let s' := { s with start := s.rpos, rel := s.got.length }
    some (if s.rread > 0 then { s' with rpc := .relCas } else { s' with rpc := .reload })
  | .relCas => some (if s.wset then { s with wset := false, rpc := .relRecv } else { s with rpc := .reload })
  | .relRecv => if s.closed then some { s with rpc := .reload } else none
  | .reload =>
    let s' := { s with rnext := s.next, rpub := s.pub, rres := false }
    some (if s.rpos = s.next then { s' with rpc := .waitCas } else { s' with rpc := .get })
  | .waitCas => some (if s.rset then rWaited s else { s with rset := true, rpc := .waitSend })
  | .waitSend => if s.closed then some (rWaited s) else none
  | .get =>
    let b := s.mem s.rpos
    some (rLoop { s with rdst := s.rdst.set s.ri b, got := s.got ++ [b], rpos := incr N s.rpos,
                         rread := s.rread + 1, ri := s.ri + 1 })
  | .fstore =>
    let s' := { s with start := s.rpos, rel := s.got.length }
    some (if s.rread > 0 then { s' with rpc := .frelCas } else rReturn s')
  | .frelCas => some (if s.wset then { s with wset := false, rpc := .frelRecv } else rReturn s)
  | .frelRecv => if s.closed then some (rReturn s) else none

/-- The machine: `none` if the action is not possible.  A call is only possible outside a
call, and with a slice long enough for the count (otherwise Go panics in the caller's
fault). -/
def step (N : Nat) (a : Action) (s : State) : Option State :=
  match a with
  | .callW data n =>
    if s.wpc = .idle ∧ n ≤ data.length then
      some { s with wpc := .load1, wdata := data, wn := n, given := s.given ++ data.take n }
    else none
  | .callR dst n =>
    if s.rpc = .idle ∧ n ≤ dst.length then
      some { s with rpc := .load1, rdst := dst, rn := n, rorig := dst }
    else none
  | .w => wStep N s
  | .r => rStep N s
  | .handR =>
    if s.rpc = .waitSend then
      if s.wpc = .relRecv then some (wReleased (rWaited s))
      else if s.wpc = .frelRecv then some (wReturn (rWaited s))
      else none
    else none
  | .handW =>
    if s.wpc = .waitSend then
      if s.rpc = .relRecv then some (wWaited { s with rpc := .reload })
      else if s.rpc = .frelRecv then some (wWaited (rReturn s))
      else none
    else none
  | .close => some { s with closed := true }

/-- Run a schedule. -/
def run (N : Nat) : List Action → State → Option State
  | [], s => some s
  | a :: as, s => (step N a s).bind (run N as)

/-- States reachable by schedules all of whose actions satisfy `ok`. -/
inductive Reach (N : Nat) (ok : State → Action → Prop) : State → Prop where
  | init : Reach N ok init
  | step {s s' : State} (a : Action) : Reach N ok s → ok s a → step N a s = some s' → Reach N ok s'

/-- Any schedule. -/
def Any (_ : State) (_ : Action) : Prop := True

end Kafka.Ring
