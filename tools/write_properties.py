import json
P=[]
def p(title, statement, quantifier, why, anchors):
    P.append(dict(id='C%02d'%(len(P)+1), title=title, statement=statement, quantifier=quantifier, why_tests_cant=why, anchors=anchors))

E='message/encoder.go'; D='message/decoder.go'; S='message/sizeof/sizeof.go'; M='message/messages.gen.go'
R='ring/buffer.go'; N='gen.conn.go'; B='gen.broker.go'; C='client.go'; O='gen.option.go'; RB='gen.record_batch.go'

p('Fixed-width scalars round-trip',
  'Writing a bool, int8, int16, int32 or int64 with the Encoder and reading it back with the matching Decoder method returns the same value with no error and advances the decoder by exactly the bytes written, wherever in the buffer it sits; integers are big-endian two\'s complement.',
  'every value of each scalar type, every surrounding buffer content and offset',
  '2^64 values times every buffer position; tests use two literals per type',
  [E+':PutBool,PutInt8,PutInt16,PutInt32,PutInt64', D+':Bool,Int8,Int16,Int32,Int64'])
p('Strings round-trip',
  'A string written with PutString is read back identically by String, consuming exactly the bytes written.',
  'every byte string of every length, every buffer position',
  'the length prefix is an int16, so behaviour at 32767/32768/65535 and above needs an argument over all lengths',
  [E+':PutString', D+':String'])
p('Nullable strings preserve nil and round-trip',
  'A *string written with PutNullableString is read back by NullableString as an equal *string: nil as nil, a string as the same string.',
  'nil and every string of every length',
  'nil is one of the inputs and the test table never feeds it; string lengths are unbounded',
  [E+':PutNullableString', D+':NullableString'])
p('Byte slices round-trip',
  'A []byte written with PutBytes is read back by Bytes with the same content (a nil slice comes back empty), consuming exactly the bytes written.',
  'every byte slice (nil or not) shorter than 2^31, every buffer position',
  'unbounded lengths and contents', [E+':PutBytes', D+':Bytes'])
p('Scalar and string arrays round-trip, keeping nil distinct from empty',
  '[]int32, []int64 and []string written with PutInt32Array/PutInt64Array/PutStringArray are read back equal, including the difference between nil and empty.',
  'nil and every list of every length below 2^31, strings of at most 32767 bytes', 'unbounded lengths', [E+':PutInt32Array,PutInt64Array,PutStringArray', D+':Int32Array,Int64Array,StringArray'])
p('Varints round-trip',
  'Every int64 written with PutVarInt is read back unchanged by VarInt, uses at most ten bytes, and consumes exactly the bytes written.',
  'all 2^64 values, every following buffer content', 'the zig-zag and base-128 loop cannot be enumerated', [E+':PutVarInt', D+':VarInt', S+':VarInt'])
p('Var-length byte slices and strings round-trip',
  'A []byte written with PutVarBytes is read back by VarBytes, and a string written with PutVarString is read back identically by VarString, consuming exactly the bytes written.',
  'every byte slice and every string, including strings that are not valid UTF-8', 'the string path re-encodes rune by rune; all byte strings cannot be enumerated',
  [E+':PutVarBytes,PutVarString', D+':VarBytes,VarString'])
p('Short input is reported as insufficient data',
  'If the bytes available to the decoder are a strict prefix of an encoded value, reading that value returns an error recognised by IsInsufficientDataError; it neither succeeds nor panics.',
  'every primitive, every value, every truncation point', 'all cut points of all values', [D+':remains', D+':IsInsufficientDataError'])
p('Overflowing varints are rejected',
  'A varint whose value does not fit 64 bits makes VarInt return an error and the decoder makes no further progress into the message.',
  'every over-long byte sequence at every offset', 'unbounded family of malformed inputs', [D+':VarInt'])
p('Decoding never panics',
  'No decoder method and no message Decode panics, whatever bytes the peer sent.',
  'every byte buffer, every message type, every version', 'all byte strings times all message types', [D+':String,Bytes,Int32Array,VarBytes', M+':Decode'])
p('Decoding only looks at the declared bytes',
  'The outcome of decoding a message (value, error, final position) depends only on the bytes between the decoder\'s position and its declared length; stale bytes left in a reused buffer after that length never influence it and the position never passes the length.',
  'every buffer, every pair of buffers that agree up to the length, every message type and version', 'all stale buffer contents; non-interference is a two-run property', [D+':remains,VarInt', M+':Decode', N+':messageLoop'])
p('An encoder error is sticky and output is a prefix',
  'Once a write to the target fails, the Encoder writes nothing more, and Flush reports the error; what reached the target is a prefix of the encoding.',
  'every sequence of Put calls, every message, every failure point of every writer', 'all fault points of all sequences', [E+':Encoder,Flush'])
p('Size is exactly the number of bytes Encode writes',
  'For every message type and version, Size(version) equals the number of bytes Encode(version) produces.',
  'all 218 message structs, all field values, all int16 versions', 'values and lengths are unbounded; 218 types times versions', [M+':Size,Encode', S])
p('Messages round-trip at every version',
  'Decoding the encoding of a message at a version gives a message with the same value in every field that exists in that version (nil nested arrays and nil byte fields come back empty).',
  'all 218 message structs, all field values whose strings are at most 32767 bytes and arrays/bytes below 2^31, all int16 versions', 'unbounded nested data', [M+':Encode,Decode'])
p('Message encodings are self-delimiting',
  'Decoding a message consumes exactly the bytes Encode produced, whatever bytes follow, so two messages with the same encoding are indistinguishable and no encoding is a strict prefix of another.',
  'all message structs, values, versions, trailing bytes', 'two-run property over unbounded data', [M+':Encode,Decode'])
p('Truncated messages are reported as insufficient data',
  'Decoding any strict prefix of an encoded message returns an insufficient-data error: never success, never a panic.',
  'all message structs, values, versions and cut points', 'every cut point of every encoding', [M+':Decode', D+':remains'])
p('Version gating is consistent',
  'Fields not present in a version neither appear in the bytes or the size of an encoding at that version, nor are touched by decoding at that version.',
  'all message structs, all versions, all pairs of values agreeing on present fields', 'two-run property over all values', [M])
p('Request frames are well-formed',
  'Every Broker API call writes one frame: an int32 equal to the number of bytes that follow, then api key, api version, correlation id, client id, then the request body encoded at that version.',
  'all 48 API methods, all requests below 2^31 bytes, all negotiated versions, all correlation ids', 'unbounded requests', [B+':Produce..OffsetDelete', M+':RequestHeader'])
p('Each API method uses its own key and one negotiated version throughout',
  'Every Broker method sends its own api key and the version negotiated for that key, and encodes the request body and decodes the response at that same version.',
  'all 48 methods, all negotiated version tables', 'requires agreement between header, body and response for arbitrary negotiated tables', [B, 'message/keys.go'])
p('A broker can parse the request stream back',
  'Splitting the bytes of any sequence of requests on one connection by their length prefixes yields exactly the requests sent, in order, each with its header fields and body recoverable.',
  'every sequence of requests of any API', 'unbounded sequences', [N+':Do', B])
p('Negotiated versions are mutually supported',
  'If NewBroker succeeds, the version used for each API advertised by the broker lies in both the broker\'s and this library\'s range, and no higher version does.',
  'every list of advertised ranges', 'all pairs of int16 ranges and all lists', [B+':matchVersion,negotiateApiVersions'])
p('Version negotiation succeeds whenever the ranges overlap',
  'If the broker\'s range for an API overlaps this library\'s range, negotiation for that API succeeds with the highest common version.',
  'every advertised range', 'all int16 pairs', [B+':matchVersion'])
p('Version negotiation terminates',
  'Negotiation finishes for every list of ranges a broker can send.', 'every int16 range', 'a test cannot observe non-termination for all inputs', [B+':matchVersion'])
p('Negotiation handles unknown, missing and repeated keys',
  'Api keys this library does not know are ignored, APIs the broker does not list get version 0, of repeated entries the last wins, and one incompatible known entry fails the whole negotiation.',
  'every list of advertised ranges', 'unbounded lists', [B+':negotiateApiVersions'])
p('The ring buffer is a FIFO byte stream under concurrency',
  'With one reader and one writer goroutine, the bytes returned by successive ReadN calls are exactly the bytes passed to successive WriteN calls, in order, none lost, duplicated or invented.',
  'every capacity, every sequence of call sizes, every interleaving of the two goroutines\' atomic steps', 'all schedules', [R+':WriteN,ReadN'])
p('A sequential user of the ring buffer sees a queue',
  'When calls are made one at a time and never have to block, any mix of WriteN and ReadN behaves like an unbounded-history FIFO queue of capacity size-2.',
  'every capacity at least 2 and every call sequence that fits', 'unbounded call sequences and wrap-arounds', [R+':WriteN,ReadN'])
p('A blocked reader is woken when data arrives',
  'If a reader is blocked in ReadN and a writer completes a WriteN of at least one byte, the reader is resumed.',
  'every write size, every interleaving', 'lost wake-ups are schedule dependent', [R+':WriteN,ReadN,mutex'])
p('Reader and writer never deadlock each other',
  'Reader and writer are never both blocked in the ring buffer for ever.', 'every capacity, call sequence and interleaving', 'schedule dependent', [R])
p('Releasing never blocks for ever and wakes exactly one waiter',
  'A goroutine that wakes the other side is itself never stuck doing so: whenever it waits for the hand-over the other side is waiting too; each successful wake resumes exactly one Wait and no Wait returns without a wake or Close.',
  'every interleaving of any call sequences', 'schedule dependent', [R+':mutex.Wait,mutex.Release'])
p('Closing the ring buffer unblocks both sides',
  'After Close every ReadN and WriteN in progress or started later returns within a number of its own steps bounded by its size, whatever the other goroutine does.',
  'every state at the moment of Close, every interleaving', 'all crash points', [R+':Close,mutex'])
p('The ring buffer never indexes outside its storage',
  'Positions used to index the storage stay within it and calls do not touch caller bytes beyond the requested count.',
  'every capacity at least 1, every interleaving, even after Close or a premature wake-up', 'all schedules', [R+':incr,WriteN,ReadN'])
p('A reply goes to the call that asked for it',
  'A call to Do that returns through its reply returns the result of decoding a frame whose correlation id is the id that call put on the wire; no two concurrent calls share an id.',
  'every number of concurrent calls (fewer than 2^32 outstanding), every order of replies, every interleaving', 'all interleavings', [N+':Do,messageLoop'])
p('Each call gets at most one reply and the dispatcher never blocks on one',
  'For every call the decode function runs at most once, repeated or unknown correlation ids are dropped, and delivering a reply never blocks the dispatcher even if the caller has gone.',
  'every frame sequence and interleaving', 'all interleavings', [N+':messageLoop,Do'])
p('A request is registered before it can be answered',
  'Whenever a correlation id has been put on the wire, the call that sent it is registered, or its reply has already been dispatched.',
  'every interleaving', 'race between reply and registration', [N+':Do'])
p('Request frames are never interleaved',
  'The bytes on the wire are a concatenation of whole request frames, in the order calls obtained the write lock, however many goroutines call the broker.',
  'any number of goroutines, any interleaving', 'all interleavings', [N+':Do'])
p('A lost connection fails outstanding calls',
  'When the connection breaks or is closed, every outstanding and later call returns an error.', 'every crash point of the connection', 'all crash points; blocked-for-ever is not observable by a test', [N+':readLoop,messageLoop,Do,Close'])
p('Bad frames do not desynchronise the stream',
  'A reply that is unknown, undecodable or shorter than a header is skipped and the next frame is still dispatched correctly.',
  'every sequence of frames with any payloads', 'unbounded frame sequences', [N+':messageLoop'])
p('Frame sizes sent by the peer are safe',
  'No frame length announced by the broker can crash the client or desynchronise it.', 'all int32 lengths', 'all lengths and continuations', [N+':messageLoop'])
p('Bootstrap fail-over',
  'Client operations use the first bootstrap address that connects, in order, skipping those that fail, and return an error when none connects.',
  'every bootstrap list including the empty one, every pattern of failures', 'all lists and failure patterns', [C+':dialBootstrap,Metadata'])
p('Leader, controller and coordinator lookup',
  'DialLeader, DialController and DialGroupCoordinator connect to host:port of the broker the cluster metadata names for that partition, cluster or group, and return an error (without dialling) when the metadata names none.',
  'every metadata response', 'all metadata contents', [C+':DialLeader,DialController,dialNode,findTopic,findPartition,DialGroupCoordinator'])
p('Connection options',
  'Options apply in order with the last one winning, a nil dialer selects the default dialer, and the client id sent is always the default id.',
  'every list of options', 'unbounded lists', [O+':buildConfig'])
p('RecordBatch.Size is exactly the number of bytes Encode writes',
  'For every record batch, Size equals the number of bytes Encode produces.', 'every batch, any records, keys, values and headers', 'unbounded batches', [RB+':Size,Encode,sizeofMessage,encodeMessage'])
p('RecordBatch wire format',
  'Encode writes the fixed batch header in protocol order with magic 2 and then each record with its attributes, timestamp delta, offset delta, key, value and headers, such that they can be read back.',
  'every batch', 'unbounded batches', [RB+':Encode,encodeMessage'])
p('Header lookup and iteration agree',
  'Range over a MapHeader visits exactly the pairs Get finds, each key once.', 'every map, every iteration order', 'map iteration order is random', [RB+':MapHeader'])
p('Client operations release their connections',
  'Metadata, DialController, DialLeader and DialGroupCoordinator leave open no connection they made, other than that of the broker they return.',
  'every network behaviour and metadata content', 'leaks depend on all failure patterns', [C+':Metadata,DialController,DialLeader,DialGroupCoordinator', B+':NewBroker'])
p('NewBroker reports an error the broker reports',
  'NewBroker returns an error whenever the broker answers the version request with a non-zero error code; otherwise the versions it stores are those negotiated from that answer.',
  'every error code and every answer', 'all replies', [B+':NewBroker'])
p('Requests are messages of the Kafka protocol',
  'What a method writes is its request as the Kafka 2.4 protocol describes it at the negotiated version: the header version of that API and version, every field of the message in order, in the encoding of that version, and the length in front.',
  'all 48 methods, all their versions, every request, every id and client id', '48 methods times versions times unbounded contents; round-trip tests agree with themselves', [M, B])
p('Replies of the Kafka protocol are understood',
  'From every reply that the Kafka 2.4 protocol allows for the request at the negotiated version, the method returns the values that are in it, field by field, and consumes the whole reply.',
  'all 48 methods, all their versions, every valid reply, null where the protocol has null', '48 methods times versions times unbounded contents', [M, B])
p('A call returns what the broker answered',
  'If the broker answers a call with a reply of the protocol and the call returns through its reply, the request has been put on the connection as the protocol prescribes and the call returns the values of that very reply, however many calls are outstanding and however the bytes arrive.',
  'every method, version, request and reply, every interleaving of callers, loops and network', 'all interleavings and contents', [N+':Do,readLoop,messageLoop', R, B])
p('Byte slices in a reply stay as they were returned',
  'A byte slice that a method has returned (authentication bytes, group metadata, records, token HMACs) keeps its contents afterwards, whatever further replies arrive on the connection.',
  'every reply, every later state of the connection', 'depends on which later reply overwrites which bytes', [N+':messageLoop', 'message/decoder.go:Bytes'])
p('A reply that has arrived is returned',
  'When the bytes of a reply to a waiting call have been received, the call can go on to return it without waiting for anything further from the peer, whatever frames came before it, and does return it in every execution in which no goroutine is passed over for ever.',
  'every state of the connection, every interleaving, every division of the bytes into reads', 'tests see replies that arrive in one piece', [N+':Do,readLoop,messageLoop', R+':WriteN,ReadN'])
p('Received bytes are not dropped',
  'Every byte that the network connection returns is put into the ring buffer and so becomes part of the stream of frames, also the last ones before the connection ends.',
  'every behaviour of a net.Conn, including those that return the last bytes together with an error (as TLS connections do)', 'depends on when the peer closes', [N+':readLoop'])
p('Close ends the connection',
  'A call of Close can go on to return from every state, and does return in every execution in which no goroutine is passed over for ever, unless the program crashes; once the network connection is closed both goroutines make only a bounded number of further steps; when Close has returned both have ended, nothing more is read or written, and no call returns a reply it had not already been given.',
  'every state, every interleaving with calls, loops and network, every further schedule', 'all interleavings', [N+':Close,readLoop,messageLoop', R+':Close'])
p('Only complete replies are returned',
  'A call that returns without an error returns a complete frame of the stream the peer has sent, with the correlation id of the call; in particular a reply cut short by Close is not returned.',
  'every interleaving, every stream of bytes', 'depends on when Close happens', [N+':Do,messageLoop,Close', R+':ReadN,Close'])
p('Closing an idle connection does not crash the program',
  'When every reply has been read and no call is outstanding, Close (and anything else that happens without the peer sending more) does not make a goroutine panic.',
  'every history of the connection, every interleaving of Close', 'needs a connection on which more has been received than the ring buffer holds', [N+':messageLoop,Close', R+':ReadN,Close'])
p('No data races',
  'Whatever the callers, the loops and the network do, no two goroutines access the same non-atomic memory of a connection at the same time with one of them writing: not the map of requests, not the encoder, not a byte of the ring buffer, not the result of a method.',
  'every interleaving, every behaviour of peer and network', 'the race detector sees the races of the executions it runs', [N+':Do,readLoop,messageLoop', R+':WriteN,ReadN', B])
p('A connection that failed to write stays failed',
  'Once a write to the network connection has failed, nothing more is written to it, and every call that had not begun to encode its request returns that error, whatever happens.',
  'every state, every further schedule', 'all continuations after a fault', [N+':Do', 'message/encoder.go:Flush'])
p('A call that has returned is not registered',
  'When Do has returned, with a reply or with an error, the connection keeps no entry for that call.',
  'every interleaving, every number of calls', 'leaks show after many calls on a broken connection', [N+':Do,messageLoop'])
p('What Flush reports is what has been written',
  'When Do writes a request through the buffered writer of the connection and Flush reports no error, exactly the bytes of the request have been accepted by the network connection, in order; when it reports an error, it is the first one the network connection returned, and a part from the start of the request has been accepted; from then on nothing is written and every call gets that error.  This holds for every encoder method, also those that lose errors of other writers.',
  'every request, every sequence of encoder calls, every pattern of errors and short writes of the network connection', 'all sizes relative to the 4096 byte buffer and all fault patterns', [N+':Do,Connect', 'message/encoder.go'])
p('What a method does with any bytes in place of a reply',
  'Whatever bytes follow the id of a reply, the method returns the values of the message at their beginning if there is one according to the Kafka schemas at the negotiated version, returns a short buffer error if they end before the message does, and panics exactly if they contain a length that cannot be (a string or array of scalars below -1, a byte string below 0); the methods that no bytes can crash are those whose replies have none of these.',
  'all 48 methods, every version (CreateTopics below 5), every sequence of bytes of any length', 'all byte sequences; fuzzing samples them', [M, B, 'message/decoder.go'])
p('Calls do not hold one another up',
  'In every execution in which no goroutine is passed over for ever and none panics, every call is registered, and, if the network connection takes bytes or fails, comes to wait for its own reply or returns: no call waits for ever for a lock, whatever other calls, frames and unanswered requests there are; a call that has been given its reply returns it.',
  'every infinite fair execution with any number of calls', 'liveness over infinite executions; needs all interleavings', [N+':Do,messageLoop'])
p('A session with a broker of the protocol works',
  'With every broker that keeps to the protocol and has versions in common with the library, NewBroker succeeds, and every method of an API that the broker has writes a request of the protocol at a version the broker has and returns the values of the broker\'s reply.',
  'every broker (any ranges of versions, any replies of the protocol), all 48 methods, every request, at any time', 'brokers of all versions with all replies; tests run against one broker', [B, C+':NewBroker', M])
p('The address dialled denotes the broker that was named',
  'When a client dials the leader, controller or coordinator it was told, net.Dial reads the host and the port of that broker out of the address, whatever they are.',
  'every host (IPv6 addresses included) and port', 'tests run with names of hosts', [C+':DialLeader,DialController,DialGroupCoordinator'])
p('Memory asked for is bounded by the bytes received',
  'Decoding a reply asks for no more memory (elements of arrays and bytes of strings) than there are bytes in the reply, whatever they are.',
  'all 48 methods, every version, every sequence of bytes', 'all byte sequences; a test that finds it ends with the process out of memory', [M, 'message/decoder.go', B])
p('A call to a broker that answers returns',
  'In every execution on an open connection in which no goroutine is passed over for ever and none panics, and in which the network connection takes bytes or fails: when a call has begun to write its request, and after that a frame with its id is received, then the call returns, with what a frame with its id brought or with the error of the network connection.',
  'every infinite fair execution with any number of calls, frames and pieces they come in', 'liveness over infinite executions; the call waits for ever only in rare interleavings', [N+':Do,readLoop,messageLoop', R+':WriteN,ReadN'])
p('Frames that arrive whole are read as they are',
  'When every read of the network connection returns whole frames that fit into what is free of the ring buffer, and nobody calls Close, the frames that are read are those that were sent, in order; every reply returned is one that was sent, with the id of the call; and no goroutine panics but in decoding the reply it has been given.',
  'every interleaving of callers, loops and network, any number of calls, all contents of the frames', 'the interleavings in which it fails are a few instructions wide', [N+':readLoop,messageLoop', R+':WriteN,ReadN,Release,wait'])
p("In a cluster the client connects to leader, controller and coordinator",
  "A client that is given addresses of a cluster, at least one of which is that of a node while the others are nodes' or refuse connections, finds the nodes: DialLeader returns a Broker connected to the node that leads the partition, DialController one connected to the controller, DialGroupCoordinator one connected to the coordinator of the group, each with versions the node has; when a partition has no leader or a group no coordinator, they return errors.",
  "all clusters (nodes at their hosts and ports with the versions they have, leaders, controller, coordinators), networks on which their nodes accept connections and answer requests of the protocol truthfully, clients, options, topics, partitions, groups, and histories",
  "A test has one cluster of one version of Kafka with host names of one kind; the claim is about every arrangement of nodes, versions and addresses, and combines fail-over, version negotiation, the encoding of the requests, the decoding of the replies, the lookups and the form of the addresses.",
  [C+":dialBootstrap,dialNode,dialCoordinator,DialController,DialGroupCoordinator,DialLeader,Metadata", B+":NewBroker", M+":MetadataRequest,MetadataResponse,FindCoordinatorRequest,FindCoordinatorResponse"])

p('A client operation ends when its context is done',
  'Metadata, DialController, DialLeader and DialGroupCoordinator return when the context they are given is done, whatever the brokers do.',
  'all clients, operations, contexts, networks and histories', 'a broker that accepts a connection and never answers is not in a test that is to end', [C+':Metadata,dialCoordinator,DialController,DialLeader,DialGroupCoordinator', N+':Do', B+':NewBroker,matchVersion'])
p('A client operation does little on the network',
  'A client operation dials at most once for every bootstrap address and once more (Metadata: not even that), sends at most one request for each and two more (Metadata: one), sends no request but for versions and the one it is for (metadata or coordinator), and none on a connection that was there before.',
  'all clients, operations, networks, histories, and outcomes', 'retries and repeated look-ups show only when brokers fail in certain ways', [C+':dialBootstrap,dialNode,dialCoordinator,Metadata', B+':NewBroker'])

p('Calls made one after another are numbered and sent in order',
  'When calls on a connection are made one at a time, the n-th call carries the correlation id n (modulo 2^32); the bytes on the wire are the requests of the calls made, in that order, each whole but the last, and all whole when the last call waits for its reply; and a call that returns does so with the error of writing or with what decoding gives of a frame that begins with its id.',
  'all interleavings of the caller with the goroutines of the connection, all schedules and contents of what the peer sends, any number of calls', 'the goroutines of the connection still interleave with the single caller in unboundedly many ways', [N+':Do,messageLoop', C+':dialBootstrap', B+':NewBroker'])
p('Client operations look up what the caller names, and change nothing',
  'All requests of Metadata, DialController, DialLeader and DialGroupCoordinator, read as the protocol says, are requests for versions, Metadata requests about just the topics the caller has named (none for DialController) that do not let the broker create topics, or FindCoordinator requests for the consumer group named.',
  'all clients, operations, names that fit in a request, networks, histories, and versions of the requests that are not flexible', 'which topics an empty list stands for, and whether asking creates topics, depends on the version the broker has; the effect is on the cluster and not on what the call returns', [C+':Metadata,DialController,DialLeader,DialGroupCoordinator,dialCoordinator', M+':MetadataRequest,FindCoordinatorRequest'])

p('Record batches are in the documented format',
  'A record batch written by Encode, with BatchLength and CRC set as documented, is read by a reader of the documented record batch format (message format 2) as the batch with those fields, records, offsets, timestamps, keys, values and headers.',
  'every batch, any records, keys, values and headers, any reader of the format',
  'the repository has no reader of the format; a test would compare bytes of a few batches',
  [RB+':Encode,encodeMessage'])

p('Variable-length reads of arbitrary bytes are orderly',
  'Whatever bytes a Decoder holds, VarInt, VarBytes and VarString do not panic: each returns an error, or returns a value having moved on by at least one byte and not beyond the declared length.',
  'all buffers, declared lengths and positions within them',
  'The outcomes depend on which bytes follow the declared length, on lengths that are negative and on numbers of more than 64 bits; there are too many buffers to try.',
  ['message/decoder.go:VarInt,VarBytes,VarString'])

p('Discard skips what it is told to, and Reset starts again',
  'Discard(n) skips exactly the next n bytes if the declared length has as many left, and otherwise returns an error recognised by IsInsufficientDataError and skips nothing; it never moves back. Reset(length) leaves a decoder that reads the first length bytes of its buffer, whatever was read before.',
  'all buffers, declared lengths, positions and numbers of bytes',
  'a test tries a few numbers; negative numbers and positions at the ends are seldom among them',
  ['message/decoder.go:Discard,Reset,remains'])

p('Subscribe subscribes',
  'Subscribe returns a Subscription, or an error; the handler is called with the messages of the topics.',
  'all brokers, topics, handlers, networks and histories',
  'whether a call that returns no error has had an effect depends on what the network does later',
  [B+':Subscribe'])

p('Errors tell what went wrong',
  'Every error returned by NewBroker, a method of Broker, or an operation of Client wraps one cause, which errors.Is finds (and no other) and with whose text its text ends: the network error of the dial or write that has just failed, the decoder error of the reply that has just come, the API of which no version is shared, or the node, topic or partition missing from the metadata that has just come. If a dial failed, the error names the address. IsInsufficientDataError holds of it exactly if its cause is that a reply was too short.',
  'all clients, operations, methods, networks, histories and outcomes',
  'which of many things has failed is known only of failures that a test provokes, and there are several in every operation',
  [N+':Connect', B+':NewBroker,matchVersion', C+':dialBootstrap,dialNode,DialLeader,findTopic,findPartition', 'message/decoder.go:IsInsufficientDataError'])

p('The connection takes in no more than it has room for, and no less',
  'What a connection has received and not yet read as frames is never more than the ring buffer and the buffers of the two '
  'loops hold, so a server that sends faster than replies are dispatched is held up by TCP and does not fill the memory of '
  'the client. While a reply is dispatched - decoded, or waiting for its caller or for a lock - receiving goes on by itself '
  'until the ring buffer is full, less two bytes, and no further.',
  'all calls, all bytes received, all orders in which the goroutines run',
  'A test would have to hold up dispatch and have a server send more than five megabytes, in every interleaving of the two loops.',
  [N + ':readLoop,messageLoop', R + ':WriteN,ReadN'])

p('A message can be decoded into again',
  'What Decode makes of a message does not depend on what was in the message before: whether it succeeds, with which error it fails, and how much of the input it reads is the same, and after success the message stands for the same bytes, and has the same Size, at that version as a new message would.',
  'all message structs, versions, inputs and previous contents',
  'a two-run property over all inputs; tests decode into new messages',
  [M + ':Decode'])

p('A connection prints nothing',
  'A connection does not write to the standard output of the program: what goes wrong is reported to the callers.',
  'all calls of Do and Close, all bytes received, all failures of the network, all orders in which the goroutines run',
  'tests do not look at standard output, and what is printed there depends on what the peer sends and on when the connection ends',
  [N + ':readLoop,messageLoop,Close'])

p('A method returns also when the protocol has no reply to its request',
  'When the broker has done what the protocol asks of it, the method returns: after the reply, if the protocol has one to the request, and else - Produce with Acks 0, which brokers do not answer - when the request has been written.',
  'all methods and requests, all other calls, all orders in which the goroutines run',
  'a test against a server that answers everything does not see it; that a call waits for ever cannot be observed',
  [N + ':Do', B + ':Produce'])

p('Errors a broker reports about what was looked up are reported',
  'When the metadata reports an error about the topic or the partition asked for, or the reply to FindCoordinator an error about the group, the operation of Client that looked it up returns an error from which the caller can tell the code.',
  'all clients, topics, partitions, groups, networks, histories and error codes',
  'a test has brokers that report no errors, or has a few codes at a few places',
  [C+':DialLeader,DialGroupCoordinator,findTopic,findPartition'])

p('A client may be used by several goroutines at once',
  'Whatever other operations of a Client are under way, and whatever the caller does after NewClient with the slices it passed, an operation does what it would do alone: the same dials and requests, with the addresses and options passed to NewClient, and with the same outcome.',
  'all numbers of operations, all operations, networks, outcomes of dials and requests, orders in which the operations run, and all that the caller stores in the slices at any time',
  'interference shows only in some interleavings, and a caller that uses a slice again only in some programs',
  [C+':NewClient,dialBootstrap', B+':NewBroker', N+':Connect'])

p('A connection that the peer has closed is given up',
  'When the peer has closed the connection, or reading from it has failed in another way, both goroutines of the connection end and the network connection is closed, also when nobody calls Close.',
  'all calls, all bytes received before, all failures of reading, all orders in which the goroutines run and none is passed over for ever',
  'a goroutine that is left waiting for ever is not seen by tests, nor is a network connection that is never closed',
  [N + ':readLoop,messageLoop,Close'])

p('A ring buffer of any size can be used',
  'A buffer made by New(size) takes size - 2 bytes before the writer has to wait for the reader, and WriteN and ReadN do not panic, however many bytes have passed through it.',
  'all sizes, all calls and all orders in which the two goroutines run',
  'positions wrap around in 32 bits only after 2147483648 bytes and with buffers of gigabytes',
  [R + ':New,incr,WriteN,ReadN'])

p('The functions given to Do may use the connection',
  'Whatever the encode and decode functions given to Do do, be it to call Do or Close of the same connection or to panic, every call of Close returns, every other call of Do is sent if the network takes it, and a call of Do whose decode has been called returns.',
  'all functions, all calls and all orders in which the goroutines run and none is passed over for ever',
  'the functions of Broker do not use the connection; those of other users may, and a call that never returns cannot be observed',
  [N + ':Do,messageLoop,Close'])

p('A connection works only for what it receives',
  'The two goroutines of a connection do work in proportion to the bytes received and to the returns of Read, and to nothing else: each byte and each return costs a constant number of operations whatever the size of the ring buffer, and when nothing more is received they come to rest.',
  'all bytes received and their division into pieces, all calls, all states of a connection, all sizes of the ring buffer and all orders in which the goroutines run',
  'a goroutine that goes round for nothing shows only as load on the processor',
  [N + ':readLoop,messageLoop', R + ':ReadN,WriteN'])

p('Decoding takes steps in proportion to the bytes',
  'However the bytes handed to Decode of a message type or to the decode function of a method of Broker are chosen, decoding is over, with a value, an error or a panic, after a number of steps (calls of Decoder, times round a loop, bytes copied) that is at most two for each byte there is, and one; no array length in the bytes keeps it going for longer.',
  'all 218 message types and all 48 methods, all versions, all bytes, and all values decoded into',
  'the longest loops are those for lengths that are far from what the bytes can hold, and the bound is over all bytes',
  [M + ':Decode', D + ':String,Bytes,ArrayLength,Int32Array,Int64Array,StringArray'])

p('A request is written with few writes',
  'A call of Do whose request has n bytes calls Write of the network connection at most once for every 4096 bytes and once for the rest, whatever pieces the encode function puts and whatever the network does; so a request of up to 4096 bytes is exactly one write on a connection to which no write has failed, and a call that puts nothing writes nothing.',
  'all functions made of the methods of Encoder, all requests of the methods of Broker, all requests sent before and all networks',
  'how often Write is called does not show in the bytes, and depends on the sizes of all pieces put',
  [N + ':Connect,Do', E + ':Flush,PutBytes,PutString'])

p('A response returned with an error is empty',
  'When a method of Broker returns an error, the response it returns along with it is the zero value: a caller who looks at it all the same is not told anything, in particular not that something has succeeded of which the broker has said nothing or the contrary.',
  'all 48 methods, all versions, all replies and all points at which a reply may be cut off',
  'tests look at the error, and what is in the response depends on the byte at which the reply ends',
  [B + ':Produce,Fetch,Metadata,DeleteTopics', M + ':Decode', D + ':String,Int32Array'])

p('Bytes behind a message make no difference',
  'What Decode of a message type, and a method of Broker with its reply, makes of some bytes depends only on the bytes of the message: with any others behind, the value is the same, as many bytes are read, and a panic stays a panic; bytes that have not been read can be left out; and where there are too few, fewer are too few.',
  'all 218 message types and 48 methods, all versions, all bytes (proper or not), all bytes behind them, and all values decoded into',
  'the bytes behind a reply are what the connection received next or has left in its buffer, and tests decode messages that stand alone',
  [M + ':Decode', D + ':remains,String,Bytes,ArrayLength,Int32Array,StringArray', B + ':Produce,Fetch,Metadata'])

p('Where bytes are missing, there are bytes that help',
  'When Decode of a message type or a method of Broker fails because of its reply, the error is the one of missing data, bytes are in fact missing (whatever comes behind, decoding takes more bytes than there were), and there are bytes which, put behind those there are, make a reply that is decoded.',
  'all 218 message types and 48 methods, all versions and all bytes (for the methods, fewer than 2^61)',
  'which bytes help depends on where the bytes end, and that there are any for all bytes is a claim about all of them',
  [M + ':Decode', D + ':remains,isInsufficientDataError,String,Bytes,ArrayLength,Int32Array,StringArray', B + ':SaslAuthenticate,Heartbeat'])

p('No request is read as another',
  'What a broker of the protocol reads in the frame that a method writes is what the caller asked for: the API, the version, and in every field the value in the request; a request that the protocol cannot represent is refused.',
  'all 48 methods at all versions that are not flexible (but OffsetCommit version 1, see C47), all requests, whether or not the broker minds bytes behind a request',
  'a request that is read as another needs a string of more than 65535 bytes whose bytes are those of other fields',
  [E + ':PutString,PutStringArray', M + ':Encode', B + ':DeleteTopics,CreateTopics,FindCoordinator'])

p('What was decoded is encoded with the same bytes',
  'When Decode of a message type succeeds, Encode of the message writes the bytes that Decode has read: as many of them, Size being their number, and the same ones; what is written can be read again and gives the same message.',
  'all 218 message types, all versions and all bytes that are decoded into a zero value, whoever has written them and whatever is behind them',
  'tests decode what Encode has written, and the bytes that another program may write for the same message are not among those',
  [M + ':Decode,Encode,Size', D + ':Bool,String,ArrayLength', E + ':PutBool,PutString,PutArrayLength'])

p('Replies that the package encodes are messages of the Kafka protocol',
  'The reply that Encode writes, behind the header that Encode writes, is that reply as the Kafka 2.4 protocol describes it at that version, for every reply whose lengths can be represented; so a broker written with the package is understood by every client.',
  'all 48 APIs, all their versions, every reply and every correlation id',
  '48 replies times versions times unbounded contents; the tests only encode and decode with the same package',
  [M + ':Encode', E])

p('Requests of the Kafka protocol are decoded',
  'From every request that the Kafka 2.4 protocol allows at a version, Decode of the header and of the request returns the api key, version, id, client id and every field that is in it, and takes exactly its bytes; a request that has not arrived completely gives an error.',
  'all 48 APIs, all their versions, every valid request, id and client id, whatever bytes follow, every place where it is cut',
  '48 requests times versions times unbounded contents; the client itself never decodes a request',
  [M + ':Decode', D])

p('What becomes of any bytes that are decoded as a request',
  'Whatever bytes arrive in place of a request, decoding the header and then the request does what the schemas of the Kafka 2.4 protocol say: it returns the header and request that are there and takes exactly their bytes, or returns the error for a short buffer if the bytes end first, or panics if there is a length that cannot be; the only request no bytes can make it panic on is ControlledShutdown version 0, the one without a client id.',
  'all 48 APIs, all versions that are not flexible, all byte sequences',
  'the bytes of an arbitrary sender are not a finite set, and the client itself never decodes a request',
  [M + ':Decode', D + ':String,Bytes,ArrayLength,StringArray,Int32Array,remains'])

import sys
open('/verif/properties.jsonl','w').write('\n'.join(json.dumps(x) for x in P)+'\n')
print(len(P))
