# Formal model of savaki/kafka in Lean 4

`properties.jsonl` states the properties, `MANIFEST.json` says which theorems prove them and to
what extent, `AXIOMS.md` lists the axioms of each theorem.  `lean/` is the Lake project.

## Layout

| Lean module | models |
|---|---|
| `Verif/Base/Go.lean` | Go bytes, slices (nil explicit), strings, panics; `encoding/binary` (big endian, varint), `unicode/utf8`, as in Go 1.13 |
| `Verif/Message/Encoder.lean` | `message/encoder.go` over an arbitrary, possibly failing `io.Writer` |
| `Verif/Message/Bufio.lean` | `bufio.Writer` of the standard library (gen.conn.go:73), over a failing network connection |
| `Verif/Message/Decoder.lean` | `message/decoder.go`, with panics as outcomes |
| `Verif/Message/Sizeof.lean` | `message/sizeof/sizeof.go`, in wrapping `Int32` |
| `Verif/Gen/Model/*.lean` | all 218 structs of `message/messages.gen.go`: Size, Encode, Decode (generated by `tools/gen_messages.py`, one Lean definition per Go function) |
| `Verif/Message/Alloc.lean`, `Verif/Gen/Alloc/*.lean` | the same Decode functions with the memory they ask for (generated; shown equal to the above but for the count) |
| `Verif/Message/Work.lean`, `Verif/Gen/Work/*.lean` | the same with the steps they take (generated; shown equal to the above but for the count) |
| `Verif/Gen/{Keys,ApiVersion,Broker,Api}.lean` | `message/keys.go`, the version table and the 48 methods of `gen.broker.go` (generated by `tools/gen_broker.py`) |
| `Verif/Gen/Spec/*.lean` | specification of the structs: `wire`, `seen`, `Fits` |
| `Verif/Gen/Proof/*.lean`, `Verif/Gen/Gate/*.lean` | their theorems |
| `Verif/Broker/*.lean` | `gen.option.go`, `dial`, negotiation (`gen.broker.go:1326-1589`); specification of the framing and the table of api keys |
| `Verif/Ring/*.lean` | `ring/buffer.go` at the granularity of atomic operations |
| `Verif/Conn/*.lean` | `gen.conn.go`: Do, readLoop, messageLoop, Close, any number of callers, as a state machine that contains the one of the ring buffer |
| `Verif/Client/*.lean` | `NewBroker`, `client.go` |
| `Verif/RecordBatch/*.lean` | `gen.record_batch.go` |
| `Verif/Protocol/{Schema,Messages,Api}.lean` | specification: the messages of the Kafka 2.4 protocol as schemas, their encoding (flexible or not), headers and framing; written by hand, not derived from the code |
| `Verif/Protocol/Conform/*.lean` | proofs that the structs follow the schemas (generated by `tools/gen_protocol.py`) |
| `Verif/Props/*.lean` | the property theorems (C01...), kept apart from lemmas |
| `Verif/Tests/Repo.lean` | the unit tests of the repository run on the model (evidence that the model computes what the code does; no property rests on them) |

## Method per property

Codec (C01-C12): the encoder is a state transformer over a writer whose n-th `Write`
may fail after any number of bytes; the decoder is a function from (buffer, length,
offset) to ok / error / panic.  `Reads m bs a` says: m, run wherever `bs` sits in a
buffer, returns `a` and advances by `|bs|`, and on any strict prefix of `bs` returns
the short-buffer error.  Proved per primitive, lifted by composition.
* C02 false beyond 32767 bytes: negation with witness, `_partial` up to 32767.
* C03 false for nil: negation, `_partial` for non-nil.
* C07 false for invalid UTF-8: negation, `_partial` for strings that are UTF-8.
* C08 false for varints, which are read past the declared length: negation; `C08_varInt_exact`: exactly when they
  are rejected (Props/Varints).
* C09 false (the code tests `n == -1`, the library returns `-(i+1)`): negation.
* C10 false (negative length prefixes): negation with witnesses; `_partial`: exact
  panic condition per primitive and no panic on any input without negative lengths.
* C11: two-run (non-interference) theorem for every message type.  VarInt reads past
  the declared length: negation for it.
* C12 false for PutVarBytes/PutVarString: negation; `_partial` for all other calls and
  all messages, and for all calls over writers that stay broken (Props/Broken).

Messages (C13-C17): generated theorems for all 218 structs by composition of the
primitive lemmas; then one theorem quantifying over an enumeration of the structs.

Broker (C18-C24): frame theorem per method, table theorem, stream parser theorem;
negotiation as int16 loops with wrap-around: C22 and C23 false, negations + partials.

Ring (C25-C31): small-step machine, one step per atomic operation or storage access,
arbitrary schedules, arbitrary programs of calls; invariants with ghost byte counters.
C25, C27, C28 are false of the code: negation by explicit schedules, and a `_partial`
FIFO theorem for every schedule in which each resumed call finds the data/space it
still needs (in particular every schedule in which nobody blocks).

Conn (C32-C38): state machine over any number of callers; byte-stream framing
function for messageLoop.  A schedule is any sequence of operations of callers of `Do`
and `Close`, of both loops, of the ring buffer and of the network.

Client/options/record batch (C39-C46): functions over an abstract network, which
decides adaptively (as a function of everything done so far) what each dial and request
returns.

Protocol (C47, C48): a value of the protocol is a tree of named fields (`Val`); a schema
says which fields a message has at which versions, and `wire` how a value is written.
`a.reqVal` and `a.respVal` read the Go structs as such values, field by field and by
name.  C47: the bytes written by a method are the encoding of the request's value with the
header of the protocol.  C48: from the encoding of any valid value the method returns a
struct whose value shows it.  Both false at flexible versions, which the client
negotiates but encodes as if they were not; negations for each of the 24 APIs that have one.

End to end (C49): C32, C37, C47 and C48 together, on the machine of the connection.

Memory of replies (C50): the buffer of `messageLoop` as part of the state, `Dec.bytesAt` for the
part of it that `Bytes` returns.  `Conn/Layers`: the buffer is the frames read, each over the ones
before; from it `C50_exact` says when a slice has kept its contents (Props/Layers).

Progress (C51): `Leads` (a state can be reached from another); `Conn/Exchange` runs a call and its
reply on an idle connection, `Conn/Dispatch` the frames in the ring buffer.  The negations about the
ring buffer and the connection run an explicit schedule symbolically, step by step, and so hold
for every capacity, in particular for the sizes in the code.

Input and closing (C52-C55): C52 follows the bytes `raw.Read` returns, also those along with an
error.  C53 bounds the steps of the goroutines by a measure (`Ring/Close`, `Conn/Live`).  C54 and C55
are about what `ReadN` returns on a closed ring buffer: what its cells hold (`Ring/Hist`), that is
zeros or bytes received before.

Races and faults (C56-C58): `Access` gives, for each goroutine, the memory its next operation
touches; a race is two of them at the same memory.  C57 and C58 are invariants of the machine of the
connection; C58_grows builds a state with any number of calls that have failed.  C58_exact and C58_leaks (Props/Registrations)
say which calls stay registered, in every execution.

Buffered writing (C59): an encoder method is a program of writes (`Prog`), some of them guarded by
the encoder's error; the same program runs on an arbitrary writer and on `bufio.Writer`.

Infinite executions (`Conn/Fair`, `Props/Fair`): `Exec` is an infinite sequence of states in which at every moment one
operation or nothing happens, `Fair` says that a goroutine that can go on again and again does so again and again (what
the scheduler and the mutexes of Go provide; a `raw.Read` or `raw.Write` on an open connection need not return).  `Takes`
adds that the network connection takes bytes or fails.  `C53_fair`, `C36_fair`, `C61` are about these; `fair_example` and
`C61_stalls` show executions that meet their hypotheses.  `C51_fair` (`Conn/Arrives`, `Props/Arrives`): `messageLoop` reads
the frames that are visible to it, by a measure of what it has to do until the next byte; the only way not to is a
`Wait` that is never ended.  `C51_received`: `readLoop` hands over what it has received, by the same argument; the only
way not to is that both loops wait.
`exec_extends` (Conn/Extend.lean): every reachable state is the start of a fair execution, so these hypotheses exclude no
state.  `Steady` adds the schedules of C25, no `Close`, no panic, no two calls
outstanding with the same id (`Apart`; so it is for the first 2^32 calls of a connection, and as long as no call is outstanding
while 2^32 others are made: `Apart.of_count`, `C32_window_partial`).  `C65_returns` says what
happens otherwise: the call waits for ever because `messageLoop` waits in `ReadN` for ever (`ReaderWaits`) although the reply
has been received, and either no two bytes come together any more or `readLoop` waits too (`WriterWaits`).

Any bytes as a reply (C60): `Protocol.Fields.message` reads bytes by the schemas of the protocol, without
reference to the code, to a value, to the end of the bytes or to a length that cannot be; each generated
`Decode` is shown to agree with it (`Parses`).

Sessions (C62): a broker of the protocol is any network that answers the requests of the protocol at the versions it has
(`Serves`); the theorems put together connecting, negotiation (C22), requests (C47) and replies (C48).  `sampleServer` shows
that there is such a broker for every list of ranges.  Addresses (C63): `splitHostPort` is `net.SplitHostPort`, from its
documentation.

Memory (C64): `Api.decodeA` is `Decode` once more, statement by statement, with a count of the elements asked for (`make`
and copies of strings; the size of an element is not modelled, nor what Go does when there is no memory); `C64_counts`: without
the count it is the modelled `Decode`.

Whole frames (C65_whole_partial, C66): `WholeReads` are the schedules in which every `raw.Read` returns whole frames that fit
into what is free of the ring buffer.  `Ring.Whole` (Conn/Whole.lean): then what is published, and what a waiting reader has
read, is whole frames, and a woken reader finds a header.

Clusters (C67): `Cluster` is what there is (nodes, leaders, controller, coordinators), `Runs` says that a network is that cluster:
connections to the address of a node reach it, and it answers the three requests the client sends, if they are of the protocol,
with replies of the protocol that are true.  Other requests, and addresses that are of no node, are not restricted.  The theorems
put together C39, C40, C22, C47, C48 and C63.

Contexts (C68): a `Context` says whether it is done, given what has happened on the network so far; `ClientOp.runWith` hands it to
the operation, which does not look at it.  Dialling is modelled as returning, with a connection or an error (`net.Dial` without a
timeout ends when the operating system gives up).

One call at a time (C70): `Client.doCall` takes a call of `Do` as one step, with a reply that the network chooses.  `C70_model` and
`C70_panics` say that this is sound for a connection on which calls are made one at a time: whatever the goroutines of the connection
did, the call wrote the bytes `doCall` writes, with the id `doCall` gives it, and ended as `doCall` ends with the reply `replyOf`
takes from the state.  A call that has not returned is `Reply.never`, a panic of `messageLoop` on a frame that is too long (C38) is
`Reply.crash`.  The converse (`Conn/Realise.lean`, `Props/Realise.lean`): after any calls with any replies that fit the buffers, each of
the four kinds of reply of the model of client.go can happen to the next call on the connection machine (`C70_answered`,
`C70_realised`).  The bytes behind a reply in the buffer of `messageLoop` are what earlier frames left there; they are not chosen in
these executions.

What the requests mean (`Protocol/Inject.lean`, `Props/Asking.lean`): the encoding of the protocol says all that is in the fields of a
version (`Fields.tells`), so that a request can be read in one way only (`C47_meaning_partial`; for all 48 methods).  C71 uses it to say what the
operations of a client ask for: `about` and `Creates` are the protocol's words on the fields Topics and AllowAutoTopicCreation of Metadata.  The code
leaves AllowAutoTopicCreation false and Topics empty if there are none, which means what is expected from version 4 on and not before.

Flexible versions: `C47_flexible_never` (`Props/Flexible.lean`) shows that no request at all (with arrays of fewer than 2^23 elements) is written as the
protocol says at a flexible version, by following the two encodings up to their first difference; `C47_exact` is then an equivalence.
`C48_exact` (`Props/Null.lean`) does the same for replies at the other versions: a method returns what is in a reply exactly if no byte string in it is
null, and panics otherwise.

Variable-length reads (C73, `Props/VarInt.lean`): the specification is arithmetic (`base128`, `fromZigzag`); each of the three readers has one
theorem that gives its outcome for every buffer, position and declared length, and one that says when the outcome is orderly.
`Props/Skip.lean` (C74) does the same for `Discard` and `Reset`.
`Client/Subscribe.lean` (C75) is the stub `Subscribe`, so that no exported function is left out.

Record batches as documented (C72): `RecordBatch/Format.lean` writes down the record batch format of Kafka's documentation, to which the code refers,
as a writer (with CRC-32C) and as a reader, and `format_reads` shows that they fit.  `C72_fails` compares lengths: whatever a reader takes for the batch
that was meant has at least as many bytes as the format writes for it (`Format.read_length`), and `Encode` writes fewer.

Errors (C76): `Err.wrap` is `fmt.Errorf` with `%w`; `Client/Error.lean` models the texts, `errors.Unwrap`, `errors.Is` and
`IsInsufficientDataError` of the errors returned.  The cause is specified by the last event of the trace (`Failed`) or the
metadata the operation has got (`Missing`).  Of the errors at earlier bootstrap addresses nothing is returned.

Flow control (C77): `wireLength` counts the bytes of the frames read, so that `received` less that is what the connection holds.
`C77_actual` is the only theorem that depends on the number 5,000,000 in the code itself; it was added when a wrong program with
5,000,001 went unnoticed.

Messages used before (C78): `Gen/Reuse` describes per type what `Decode` leaves of its receiver (`over`); the proofs run `Decode` in a used and in a
new receiver side by side (`Sim`).  What is in a receiver after an error is C89.

Standard output (C79): `Conn/Print.lean` runs an execution of the connection along with what is printed in each step; false because `readLoop`
prints the error that `Close` provokes.  `C79_exact` gives the output of every execution.

Requests without a reply (C80): the protocol has no reply to `Produce` with `acks` = 0, `Do` waits for one.  `C80_fails` and `C80_never`
show that such a call waits for ever; the spec (`hasReply`) is taken from the protocol, not from the code.

Crashes (C38, `Props/Crash.lean`): `oversize` is a specification on streams of bytes; in the schedules of C25 a crash that is no panic of a decode
function implies it, and every stream that satisfies it crashes the program in some schedule.

The counterexamples are not tied to small buffers: `Props/Sizes.lean` has those of C51, C61, C65 and C77 for all sizes from a small bound on,
so for the sizes in the code; schedules whose length depends on the size are built by induction.

C25, exactly (`Props/Timely.lean`): `Ring/Blank.lean` shows that the ring buffer does not look at the bytes (a schedule
with all bytes replaced by zeros runs through the states with all bytes replaced by zeros).  `C25_exact` says of each
schedule that leaves no `ReadN` unfinished: it is one of a queue *for all bytes passed* if and only if each access of the reader
to the storage is in time (`InTime`).  The schedules of `C25_partial` are among these (`paced_inTime`).
`C27_exact`: a `WriteN` of one byte wakes a waiting reader exactly if it fills the buffer.  `C28_fresh_partial`: a deadlock
needs a `Wait` that begins after its reason has gone.
`Props/TimelyConn.lean` proves C37, C38, C49 and C54 for connections whose ring buffer is read in time in that sense.

C55, exactly (`Props/Leftover.lean`): `leftoverSize` is computed from the bytes received and the size of the ring buffer alone
(the four bytes behind the last one, received one round earlier, read as a size).  `C55_exact`: an idle connection can crash
without receiving anything if and only if that is greater than `messageLoop`'s buffer.

Error codes in replies (C81, `Props/Codes.lean`): the client looks up topics, partitions and coordinators in replies, and ignores the error codes in
them; `C81_leader_blind` and `C81_coordinator_blind` say so for all replies.

Several operations at once (C82): `Client/Prog.lean` has the operations of `client.go` as programs of single network operations and reads of the two slices
a `Client` shares with the caller of `NewClient`; run alone they are the operations of `Client/Model.lean` (`prog_run`).  `Props/Concurrent.lean` runs
any number of them at once, in any order, with any outcomes of dials and requests, and a caller who stores in the slices.  Not modelled: data
races in the sense of the memory model of Go (a store at the same time as a read is before or after it), and the dialer and TLS configuration, which all operations share
and which `net` and `crypto/tls` document as safe for this.

Connections the peer has closed (C83, `Props/Abandoned.lean`): with the measures of `Conn/Arrives.lean`, `messageLoop` comes to wait for ever in every
fair execution in which nobody calls `Close`.

Sizes of the ring buffer (C84): `step32` (Ring/Int32) is the machine of the ring buffer with positions in int32 and with panics where an
index is outside of the storage; `incr32_int32`: its arithmetic is that of Go.

Functions that use the connection (C85): `encode` and `decode` are functions of the caller of `Do`.  In the model of the connection
they are a frame and a result.  Conn/Nested keeps the machine and restricts the schedules (`Nested`): a goroutine within a function
that calls `Do` or `Close` does nothing until that call has returned, and that call is made from there.  An `encode` that panics
and is recovered by the caller leaves `writeLock` locked; its call stays where it is for ever.  A function makes at most one call,
before it writes or reads anything.

Steps of decoding (C87): `decodeW` is `Decode` once more, counting calls of `Decoder`, times round loops (also those that read
nothing) and bytes copied; the count of a loop is by times round, so nothing is assumed about what its body reads.

Work (C86): an operation of a goroutine is a step of its machine.  `Conn/Work.lean` has the quantities that grow with every step of
`messageLoop` and only as it reads bytes; `Ring/Rounds.lean` how far the reader gets by itself.

Every schedule (`Props/Cells.lean`): where C25 and C37 fail, the bytes read are still bytes written to the same cell of the ring
buffer, or the zeros of a new buffer (`C25_cells`), and frames consist of received bytes and zeros (`C37_cells`).  `Props/Read.lean`: in every fair execution a call returns
when `messageLoop` reads a frame with its id (`C65_read`), and waits for ever when it reads none (`C80_unread`).

Writes (C88): `Message/BufioCalls.lean` counts the calls of `Write` in the model of `bufio.Writer`.

After an error (C89): `Message/Kept.lean` has the statement forms of `Decode` once more, on a receiver that is kept also in case of an error, and
`Gen/Kept` the 218 `Decode` functions made of them; forgetting the receiver gives the functions of `Gen/Model` (`C89_all`).  The specification, `Cut` and
the generated `cut`, counts the bytes of the fields: a field is there if its last byte is.  `Broker/Returned.lean` is `return resp, err` of the methods of
`Broker`.  Not modelled: a reply to a request of which not all could be written, which may arrive while the method is about to return.
(The comment on `Dec` in `Message/Decoder.lean` about the receiver is about that file only.)  For bytes of any kind the generated `first` and `Part` say what
a beginning of a message is.

More and fewer bytes (C90, C91): `Longer` (`Message/Longer.lean`) compares a decoder with one that has more bytes behind; `Filled`
(`Message/Filled.lean`) counts the zeros that are enough: `Z` if there is nothing but zeros, where all lengths are zero, and `N` behind other bytes, where
one length may have been cut off.  `Protocol/Stuck.lean` has, for replies with lengths that can be bad, bytes that nothing can be put behind.  The numbers are computed by `tools/gen_messages.py` and checked in `Gen/Kept`.

No request read as another (C92): `Begins` (`Props/Misread.lean`) is what a broker reads in a frame by the schemas of
`Verif.Protocol`, with or without bytes behind it; `Protocol/View.lean`: whether a value is one of the protocol can be told from the
fields that are there.  The requests that are read as others are constructed for any target (a string is longer than 65536 bytes).

Encoding what was decoded (C93): `Rewrites m w F` (`Message/Rewrites.lean`) says of a decoder `m` and a wire format `w` that what `m`
accepts is written by `w` with as many bytes, and the same ones but for zeros. It is proved for the methods of the decoder, for the
statement forms of `Decode` in a receiver that is zero in the fields not yet decoded, and from those for the 218 types
(`Gen/Rewrite`). The theorems (`Props/Rewrite.lean`) are about `Decode`, `Encode` and `Size` and state the comparison byte by byte.

C94 and C95 look at the messages from the other end of the connection: all 96 messages have both `Encode` and `Decode`, so a
broker (for tests, a proxy) can be written with them.  `Verif/Protocol/Asked/` and `Verif/Protocol/Served.lean` (generated by
tools/gen_protocol.py, in the way of `Verif/Protocol/Conform/`) compare `Decode` of the requests and `Encode` of the replies with
the schemas of `Verif/Protocol/Messages.lean`; `Verif/Protocol/Solid.lean` is about values without null.  The header versions are
those of the protocol.  `Api.reqAsked` is a request as a value of the protocol, with zero for the commit timestamp, which the
structure of the client does not have.  No broker exists in the repository: what is assumed of one is only that it calls `Encode`
and `Decode` of the header and of the message in this order, with the versions of the protocol.

C96 (`Props/Hearing.lean`) is for such a broker what C60 is for the client: the outcome of `Decode` of the header and the request on
any bytes at all, given by the reader of schemas in `Verif/Protocol/Parse.lean`, and from it which requests can crash it.
`Props/HearingAll.lean` removes the exceptions: `spoken` are the schemas of the protocol without the commit timestamp, and with them the
outcome is given at all versions; `Props/DecodeAll.lean` does the same for the replies (C60), where `spokenReply` has the error code of the
configuration as an ordinary field. `Props/HearingNull.lean`: null byte strings are all that C95 lacks at versions that are not flexible.

## Trusted base

* Lean 4.33.0: the kernel.  Proofs by `decide +kernel` evaluate in the kernel.  No
  `native_decide`, `bv_decide`, `implemented_by`, `unsafe`, no `sorry`, no axiom declared.
* The axioms `propext`, `Classical.choice`, `Quot.sound` of Lean, as listed per theorem in
  `AXIOMS.md`.
* That the definitions under "models" in the table say what the Go code does.  Each cites the file
  and lines it models.  For the generated ones the generators (`tools/parse_messages.py`,
  `tools/gen_messages.py`, `tools/gen_broker.py`) are trusted to translate statement by statement;
  they refuse statements they do not know.  `tools/check_messages.py` and `tools/check_broker.py`, which share no code with
  them, translate the Lean definitions back and find the Go files, line by line, up to comments and spacing (872
  types and functions of messages.gen.go; keys, version table, switch and methods of gen.broker.go).
  `tools/check_citations.py` checks that the lines cited contain what they are cited for.
* That the specifications say what the properties mean: `Verif/Message/Wire.lean` and
  `Verif/Gen/Spec` (layout), `Verif/Broker/{Frame,Protocol}.lean`,
  `Verif/Protocol/{Schema,Messages,Api,Parse}.lean` (protocol), `Verif/RecordBatch/{Spec,Format}.lean`, and the
  definitions in `Verif/Props`.  The protocol schemas were written down from knowledge of the Kafka
  2.4 message definitions, without access to them; names of fields follow the Go structs.

Not trusted: Mathlib and all lemmas (checked by the kernel); the generators of proofs.

## What is modelled

All non-test Go files: `message/{encoder,decoder,keys,messages.gen}.go`,
`message/sizeof/sizeof.go`, `ring/buffer.go`, `gen.conn.go`, `gen.broker.go`, `gen.option.go`,
`client.go`, `gen.record_batch.go`.

Not modelled: the texts of network errors, failure of
allocation (C64 counts what is asked for), garbage collection, weak memory (the machine interleaves operations as
if memory were sequentially consistent, which Go guarantees for executions without data races; C56
says where there are none; the races found there can only add behaviours), time outs of dialers, TLS itself.

## Simplifications

* `int` is unbounded except where the code can overflow it (`wrap64`).  Buffers given to a decoder
  are shorter than 2^62 bytes.
* A slice is its contents; sharing of memory between slices does not appear, except that C50
  (Verif/Conn/Memory, Props/Alias) treats the one place where it matters: `Decoder.Bytes` returns a part of the decoder's buffer.
* `Encoder` writes to an arbitrary `io.Writer`.  For the encoder of a connection this is a
  `bufio.Writer`, modelled in `Verif/Message/Bufio.lean` after the standard library (from knowledge of
  it, it is not in /repo).  The machine of the connection has its effect only: bytes passed on in
  order, in pieces, until an error; C59 shows that the model of `bufio.Writer` does this.
* Ring buffer: loads and stores of `start` and `next` are atomic operations in the code; accesses to
  `data` are single steps.  Positions and counts are natural numbers; `Verif/Ring/Int32.lean` has the positions in
  int32, and `C84_model` shows that up to a size of 2^31 it makes no difference.
* Connection: the two mutexes have no queue; `raw` is an arbitrary connection; a panic in any
  goroutine stops the machine (`crashed`); a `ReadN` for more than the buffer's size panics at the first byte
  it has no room for, once there is one (`full`); the model's call is for that many bytes.  `Do` is given functions `encode`, `decode` as their effects: bytes written for
  an id, and whether `decode` panics.
* Client: `Conn.Do` appears as one step of the sequential program; C32 connects it with the
  concurrent machine.  An `Option` is an arbitrary function on configurations; a nil `Option` (which
  panics) is not modelled.
* Negotiation: loops have a bound on iterations (`fuel`); theorems quantify over it.

## Wrong programs

`tools/seed.py` applies the edits of `seeded/mutations.json` to a scratch copy of the project, one at
a time, and finds out which of the claimed theorems no longer hold: a theorem whose proof breaks is
cut to `sorry` in the scratch copy, everything that depends on it is found with `#print axioms`.
`seeded/LOG.jsonl` has one line per edit: the definition, the edit, the claim it breaks, the theorems
that failed and those that were tightened because an edit had gone unnoticed.

A proof may break although what it proves is still true, so a broken proof alone does not show that a
theorem notices the edit.  `tools/refute.py` therefore proves, for most edits, that a theorem is
*false* of the wrong program: in a copy with all proofs left out and the edit made, it checks
`theorem refuted (h : type_of% @THEOREM) : False`, with no axioms but Lean's three.  The proofs are
in `seeded/refutations.json`; the field `refuted` of a line of `seeded/LOG.jsonl` has the theorems
refuted.  Not refuted are: edits that repair a defect (`ring-release-always`, `conn-frame-size`,
`conn-readerr-fix`, `conn-unregister-fix`, `enc-varstring-raw`, `conn-full-drop`, `reuse-reset`, `print-no-readerr`,
`conn-readerr-closes`), of which a theorem saying that the
claim fails breaks; and edits that nobody can observe or nearly so (`client-ctrl-topics`: a nil slice
of structs is written like an empty one; `conn-no-header-version`; `buf-string-error`: the error of
a `bufio.Writer` sticks, and `Flush` returns it), of which only proofs that follow the text break. Others are not refuted because a counterexample is too long to be
computed (`conn-id-two`: 2^31 calls, `conn-insert-first`: 2^32), because the edited program no longer terminates, so that the edit
fails in its definition (`bufio-flush-forgets`, `buf-flush-keep`), or because the bound that is claimed still holds
(`work-loop-double`).  Some edits were tried a second time against other theorems (`-again`, `-third`); where one of these survived,
it was tried against a theorem that is not about it (`batch-magic-third`: the magic byte is not in a record, `C72_partial` fails;
`enc-nil-array-again`: `C03_exact` is about strings, `C05_int32Array` is refuted) or the theorem was tightened afterwards.
