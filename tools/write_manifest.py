"""Write MANIFEST.json: status and note of each property, theorems from lean/Verif/Props."""
import glob
import json
import os
import re

ROOT = os.path.join(os.path.dirname(os.path.abspath(__file__)), '..')
P, Q = 'proved', 'partial'
CLAIMS = {
    'C01': (P, ''),
    'C02': (Q, 'False of the code beyond 32767 bytes (C02_fails); proved up to there (C02_exact).'),
    'C03': (Q, 'False of the code for nil (C03_fails, C03_never_nil); proved for all non-nil values that fit (C03_exact).'),
    'C04': (P, 'nil is read back as empty, as in the statement.'),
    'C05': (P, ''),
    'C06': (P, ''),
    'C07': (Q, 'Bytes proved; strings false for invalid UTF-8 (C07_fails), proved for strings that are valid UTF-8; C07_exact: for no others.'),
    'C08': (Q, 'Fixed-size values, strings, bytes and arrays proved; the varint reader reads past the declared length (C08_fails), proved when the declared length is the buffer. C08_varInt_exact, C08_varInt_stale_exact: exactly when VarInt rejects, whatever lies behind the declared length (when none of those bytes ends the varint).'),
    'C09': (Q, 'False of the code: overflow is never reported (C09_fails, C09_never_reported); C09_partial says what happens instead.'),
    'C10': (Q, 'False of the code for negative lengths (C10_fails); C10_partial: no panic without a byte that has its top bit set; the exact conditions are C10_string_iff, C10_bytes_iff, C10_int32Array_iff, C10_int64Array_iff and, for the replies of all methods, C60_panics.'),
    'C11': (P, 'For every message type; the varint reader, which no message uses, violates it (C11_varInt_fails).'),
    'C12': (Q, 'False of PutVarBytes and PutVarString (C12_varBytes_fails, C12_varString_fails); proved for all other calls. C12_broken_partial: proved for all calls, these included, over writers that stay broken once a write has failed, as network connections do.'),
    'C13': (P, ''),
    'C14': (P, ''),
    'C15': (P, ''),
    'C16': (P, ''),
    'C17': (P, 'For each of the 150 version-dependent fields.'),
    'C18': (P, ''),
    'C19': (P, ''),
    'C20': (P, ''),
    'C21': (P, ''),
    'C22': (Q, 'False of the code when the broker is newer than the library (C22_fails, C22_newer_fails); proved otherwise; C22_exact: negotiation succeeds exactly if the highest versions of the broker are known to the library and within its ranges.'),
    'C23': (Q, 'False of the code for a lower end of -32768 (C23_fails); exact characterisation in C23_exact.'),
    'C24': (P, ''),
    'C25': (Q, 'False of the code (C25_fails, for every capacity: a woken reader reads unwritten bytes); proved for every interleaving in which woken goroutines find what they waited for, in particular when each hand-over finds enough for the rest of the call, or nobody waits.  C25_exact: a schedule is one of a queue, whatever the bytes, exactly if each byte is read from the storage after it was put there and before the cell is used again. In every schedule (C25_cells) a byte returned is one written at a position that differs by a multiple of the capacity, or zero.'),
    'C26': (P, ''),
    'C27': (Q, 'False of the code for single bytes (C27_fails, for every capacity); proved for two bytes or more in every interleaving; C27_exact: a single byte wakes the reader exactly if it fills the buffer.'),
    'C28': (Q, 'False of the code (C28_fails, for every capacity); proved when check and Wait are not separated, or at least the buffer is still full (empty) when the flag of Wait is set (C28_fresh_partial), and mutual waiting is the only deadlock (C28_only).'),
    'C29': (P, ''),
    'C30': (P, ''),
    'C31': (P, ''),
    'C32': (Q, 'Reply proved (C32_reply). Unique ids are false after 2^32 calls even with two calls outstanding (C32_ids_fails); proved for the first 2^32 calls (C32_ids_partial), as long as no call is outstanding while 2^32 others are made (C32_window_partial), and for any number of calls made one at a time (C32_oneByOne_partial).'),
    'C33': (P, ''),
    'C34': (Q, 'False of the code after 2^32 calls (C34_fails); proved unless a call with the same id replaced the entry, so for the first 2^32 calls (C34_partial, C34_found), and for calls outstanding on any connection on which no two calls outstanding have had the same id (C34_apart_partial, C34_apart_found).'),
    'C35': (P, 'Including that the bytes parse as the requests of the API calls (C35_requests).'),
    'C36': (Q, 'False of the code: a call waiting for its reply waits for ever after Close (C36_close_fails) and after the peer closes (C36_peer_fails); proved for calls that have not started writing when raw is closed (C36_partial: they can go on to return an error and never wait for a reply; C36_fair_partial: they do return it in every fair execution), and for write errors; C36_fair: after Close every call returns or waits for a reply for ever. C36_gone: after the peer has closed the connection, calls return replies received whole before and no others.'),
    'C37': (Q, 'False of the code in schedules in which a woken reader runs ahead in the ring buffer (C37_fails, for all sizes); proved for all others (C37_partial); short frames are skipped in all (C37_short). C37_inTime_partial: proved for all schedules in which each byte of the ring buffer is read after it was put there and before its place is used again. C37_cells: in every schedule the frames consist of received bytes and zeros.'),
    'C38': (Q, 'False of the code for lengths above the 2000000 byte buffer (C38_fails, C38_oversize_fails); C38_partial: no other length crashes. '
            'C38_received_partial: in the schedules of C25 the cause is in the bytes received (a frame announced longer than the buffer and more than that '
            'received of it, or a reply on which a decode function panics); C38_stream_fails: every stream with such a frame can crash the program. C38_inTime_partial: the same in all schedules in which each byte of the ring buffer is read in time.'),
    'C39': (Q, 'False for the empty bootstrap list (C39_fails): Metadata returns an empty response without an error or a dial; proved for every other list.'),
    'C40': (Q, 'Leader and controller lookup follow the metadata; false of a version 0 controller (C40_controller_fails) and of a coordinator lookup that returned an error code (C40_coordinator_fails).'),
    'C41': (P, ''),
    'C42': (Q, 'False of the code for every batch with a record (C42_fails; C42_excess gives the exact excess); proved for batches without records.'),
    'C43': (Q, 'Layout proved; the offset delta, record length and counts are not written (C43_fails, C43_ambiguous, C43_unreadable); everything else is read back by a reader that knows the counts.'),
    'C44': (P, ''),
    'C45': (Q, 'False of the code (C45_never, C45_fails): nothing is ever closed.'),
    'C46': (Q, 'False of the code (C46_ignored, C46_fails): the error code is not looked at; C46_partial: the versions are the negotiated ones.'),
    'C47': (Q, 'False of the code at flexible versions (C47_flexible_fails; C47_flexible_never: of no request there), for OffsetCommit version 1 (C47_commit_fails), ControlledShutdown version 0 (C47_shutdown_fails) and nil slices where the protocol has no null (C47_nil_fails); C47_partial: proved for everything else; C47_exact: for nothing but that. C47_meaning_partial: there the bytes of a request are those of no other message of the protocol: what is read has the API, the version and in all fields of that version the values of the request.'),
    'C48': (Q, 'False of the code at flexible versions (C48_flexible_fails) and for null byte strings, which panic (C48_null_fails); C48_partial: proved for everything else. At versions that are not flexible null byte strings are exactly what is missing, for every method (C48_exact), and they always panic (C48_null_panics).'),
    'C49': (Q, 'False of the code at flexible versions (C49_fails, for all sizes), and where C25, C47 or C48 fail; C49_partial: proved for everything else. C49_inTime_partial: the same in all schedules in which each byte of the ring buffer is read in time.'),
    'C50': (Q, 'False of the code (C50_fails, for all sizes): the slice is a part of the buffer into which messageLoop reads; C50_partial: proved until messageLoop reads another byte. C50_exact: exactly when a slice has its contents after any further frames (each byte is the same in the last frame long enough to have it), in all schedules, except while the payload of a frame is being read; C50_short: it is kept while the frames read end before it.'),
    'C51': (Q, 'False of the code when the reply arrives in reads of one byte while messageLoop waits (C51_fails, for all sizes); proved when messageLoop is between two frames, whatever is before the reply (C51_partial), and for a call on an idle connection (C51_idle). In infinite fair executions (C51_fair): the reply is returned, or messageLoop waits for ever for bytes that are there and the peer never again sends two bytes together; so it is returned when messageLoop is not waiting (C51_fair_partial) and when it waits and two bytes come together (C51_fair_woken_partial); without that the claim is false there too (C51_fair_fails). For replies that have been received, whether or not readLoop has handed them over: C51_received says they are returned, or messageLoop waits for ever and either no two bytes are received together any more or readLoop waits for ever too; both happen (C51_fair_fails, C51_deadlock_fails); C51_received_partial is what is left. C51_prompt_partial: a reply that ends in a read of two bytes or more while messageLoop waits, with which the buffer is not full, is returned.'),
    'C52': (Q, 'False of the code when Read returns bytes along with an error (C52_fails; C52_reply_fails: it may be the reply to a waiting call, which then waits for ever); proved otherwise (C52_partial) and while readLoop runs (C52_running). C52_exact: exactly what is dropped, and that the claim is true of no other schedules.'),
    'C53': (P, 'What Close has established when it returns (C53_ended), that it can return (C53_returns), that it does in every fair execution (C53_fair) and a bound on the steps of both goroutines after the network connection is closed (C53_bounded).'),
    'C54': (Q, 'False of the code: a reply cut short by Close is returned as if complete (C54_fails, at every size); proved for schedules in which nobody woken in the ring buffer runs ahead (C54_partial). C54_inTime_partial: proved for all schedules in which each byte of the ring buffer is read in time.'),
    'C55': (Q, 'False of the code: once more has been received than the ring buffer holds, Close lets messageLoop take old bytes for the size of a frame and panic (C55_fails, at every size); proved as long as no more has been received (C55_partial). C55_exact: an idle connection can crash without receiving more if and only if the four bytes behind the last one received, left in the ring buffer from before, are a size greater than the buffer; C55_leftover_partial: proved otherwise.'),
    'C56': (Q, 'False of the code: messageLoop, woken, may read a byte of the ring buffer that readLoop is writing (C56_ring_fails), and may write the result of a method that is returning because its write failed (C56_reply_fails), both at every size; C56_only: there are no other races; C56_partial: none at all when nobody woken runs ahead and no write fails.'),
    'C57': (P, ''),
    'C58': (Q, 'False of the code for calls whose request could not be written (C58_fails; C58_grows: any number of them); proved for calls that return a reply or an error of decoding it (C58_partial). C58_exact: which calls are registered after they have returned (exactly those messageLoop has not taken to decode a reply, when no other call has had the id); C58_leaks: in every execution a call whose request could not be written is registered for as long as no frame with its id is read and no other call has its id.'),
    'C59': (P, 'C59_send and C59_broken about the writer, for every function C59_methods covers; C59_machine: the machine of the connection does the same.'),
    'C60': (P, 'C60_outcome, and for CreateTopics at version 5 too, with the schema as the package has it, C60_all; C60_immune and C60_immune_list: which methods a broker can crash (C60_immune_all: at all versions); reads_protocol (Props/Decode.lean): the specification reads what the protocol writes.'),
    'C61': (P, 'C61_proceeds and C61_registers; C61_stalls shows that the assumption about the network is needed: there are no deadlines, so a peer that stops reading holds up every call.'),
    'C62': (Q, 'False of the code with brokers newer than the library and at flexible versions (C62_fails, C62_newer_fails, C62_flexible_fails; of the 48 APIs of Kafka 2.4 itself 24, C62_kafka24); an API the broker does not have is used at version 0 (C62_absent_fails); proved otherwise (C62_partial), with the exceptions of C47 and C48.'),
    'C63': (Q, 'False of the code for hosts with colons (C63_fails, C63_colon_fails); C63_exact: true exactly for hosts without colons and brackets; net.JoinHostPort would do (joinHostPort_denotes).'),
    'C64': (Q, 'False of the code: fewer than 24 bytes make every method whose reply has an array ask for 2147483647 elements (C64_fails, C64_array_fails); C64_exact: at the versions of the protocol true exactly of the replies without arrays (11 of 48 methods, C64_methods); proved of all replies that are decoded without error (C64_partial), and a bound for all bytes (C64_bound).'),
    'C65': (Q, 'Executions in which no two calls outstanding have the same id (else C34_fails), whatever the number of calls. False of the code: a reply that comes byte by byte is never returned (C65_fails, for all sizes from 16 and 8 on), nor one that comes in one piece between the moment messageLoop finds nothing and the moment it begins to wait (C65_race_fails).  C65_returns: in the schedules of C25 the call returns, or messageLoop waits in ReadN for ever although the reply has been received, and either no two bytes are received together any more or readLoop waits for ever too; C65_partial: so it returns if, whenever messageLoop waits while a call does, two bytes or more are received together later; C65_whole_partial: it returns when the peer answers in whole frames and messageLoop does not begin to wait while there is something for it. C65_read: in every schedule a call returns when messageLoop reads a frame with its id.'),
    'C66': (Q, 'False of the code at every size (C66_fails): readLoop publishes a reply, messageLoop reads it and waits for the next, now readLoop looks, and wakes it for nothing; messageLoop reads a frame that was never sent.  C66_partial: true when messageLoop does not begin to wait between the two steps in which readLoop publishes and looks.'),
    'C67': (Q, "Proved for clusters whose nodes' highest versions the library knows, with Metadata (from version 1) and FindCoordinator not flexible, whose hosts have no colons, on networks that refuse connections to :-1. Missing because false: nodes at hosts with colons are never connected to (C67_ipv6_fails; C67_fails), newer brokers and flexible versions (C62), the controller at Metadata version 0 (C40), and the error code of FindCoordinator, which is ignored (C40)."),
    'C68': (Q, 'False of the code, which does not look at the contexts: a bootstrap broker that accepts the connection and does not answer holds up every operation for ever (C68_fails, C68_silent). C68_partial: an operation that waits for ever has just sent a request that is never answered or been told versions on which negotiation does not end (C23); C68_answered: with brokers that answer all operations end.'),
    'C69': (P, 'C69_bounded, C69_metadata, C69_apis.'),
    'C70': (P, 'C70_ids, C70_wire, C70_asked, C70_model; C70_model and C70_panics connect the model of a connection with that of client.go: what has happened to a call is what doCall does with the corresponding reply; C70_answered and C70_realised: everything the model of client.go allows to become of a request can happen on the connection.'),
    'C71': (Q, 'False of the code below version 4 of Metadata, where every request that names a topic lets the broker create it (C71_creates, C71_fails_create), and at version 0, where a call that names no topic asks about all of them (C71_all, C71_fails_all); C71_partial: proved from version 4 on. C71_asks says exactly what the requests mean at every version that is not flexible; C71_flexible: at version 9 a call that names no topic writes a request about all topics, and a byte more.'),
    'C72': (Q, 'False of every batch: C72_fails (no batch with good records is read as what was meant, whatever the caller puts in; the number of records is not written), C72_rejected (batches without records, or whose first record has the first timestamp or is 64 to 8191 after it, are rejected by every reader of the format). Proved: C72_partial (the fixed part is as documented), C72_record_partial (the part of a record up to its headers). format_reads: the specification of the format is one that can be read.'),
    'C73': (Q, 'False of the code: VarInt completes a number with bytes behind the declared length (C73_fails) and moves back on a number of more than 64 bits; VarBytes panics on a negative length (C73_varBytes_fails); VarString reads a length of -1 as an empty string and does not move, so that strings can be read without end (C73_varString_fails). What each does with any bytes: C73_varInt, C73_varBytes, C73_varString; when exactly that is orderly: C73_varInt_exact, C73_varBytes_exact, C73_varString_exact; C73_partial: orderly for numbers that fit, are not negative and end within the declared length.'),
    'C74': (Q, 'False of the code for negative numbers, of which Discard moves back (C74_fails, C74_negative); C74_discard gives its outcome for every number; C74_partial: proved for all others. Reset: C74_reset, C74_reset_rest.'),
    'C75': (Q, 'False of the code, which is a stub: C75_never (always nil without an error, and nothing happens), C75_fails. Nothing of the claim is true.'),
    'C76': (P, 'C76_one (one cause), C76_is (errors.Is finds it and nothing else), C76_text, C76_newBroker, C76_operation, C76_method (which cause it is), C76_insufficient.'),
    'C77': (Q, 'Both parts are proved for the schedules of C25 (no goroutine goes on after Wait without room or data): the bound in every '
            'reachable state, and that readLoop alone takes in what fits and then blocks; C77_actual is the second part at the sizes in '
            'the code. The bound is false of other schedules: between the closing of the ring buffer and of the network connection nothing '
            'stops readLoop (C77_fails, for all sizes), and without Close the writer overtakes the reader (C77_open_fails, if the ring buffer is larger than the two other buffers, as in the code).'),
    'C78': (Q, 'False of the code where an array of structures is null in the input: what was there before stays (C78_fails). C78_exact: of every '
            'message type, version and input, the claim holds exactly if no array of structures of the message itself is null; C78_partial is '
            'that half of it. Outcome and position never depend on the message (C78_outcome); C78_value says what it becomes in any case; '
            'C78_own: what Encode writes is always read as it should be.'),
    'C79': (Q, 'False of the code: a connection that is closed in order prints an error (C79_closed; C79_close_fails: even if nothing else has '
            'happened; C79_fails). C79_exact: what is printed is, in every execution, the error with which reading ended and "short buffer" '
            'for every frame too short for a correlation id, and nothing else; C79_partial: so nothing before that.'),
    'C80': (Q, 'False of the code: Do waits for a reply to every request (C80_fails, for all sizes), and a Produce with Acks 0 waits for ever '
            'unless its request cannot be written (C80_never, in the schedules of C25). C80_partial: requests that have a reply, as in C65. C80_unread, C80_never_inTime: the same in every schedule of a call with whose id no frame is read, and in all in which each byte of the ring buffer is read in time.'),
    'C81': (Q, 'False of the code: the error codes in the replies are not looked at (C81_leader_blind, C81_coordinator_blind: replies that differ '
            'in codes only have the same effect; C81_leader_fails, C81_coordinator_fails). C81_leader_partial: when the topic or the partition is '
            'missing, or the leader is not among the brokers, there is an error, but not with the code.'),
    'C82': (Q, 'False of the code: NewClient keeps the slices it is passed, so a caller that stores in them redirects operations (C82_fails). '
            'C82_partial: when the caller leaves them alone, operations at once do what each does alone; C82_begun_partial: also those that have '
            'not ended.'),
    'C83': (Q, 'False of the code, for all sizes (C83_fails): readLoop ends, and nothing else. C83_only: in every execution only a call of Close ends '
            'messageLoop and closes the network connection; C83_leaks_always: in all schedules messageLoop comes to wait for ever (C83_leaks: those of C25). C83_partial: once '
            'Close is called everything ends.'),
    'C84': (Q, 'False of the code for size 0 and for sizes above 2^31 (C84_fails, C84_large_fails): positions are int32. C84_exact: true exactly of the sizes from 1 to 2^31; '
            'C84_panics, C84_less: what happens with the others. C84_model: up to 2^31 the buffer with positions in int32 has the executions of the model with natural numbers.'),
    'C85': (Q, 'False of the code (C85_encode_fails, C85_decode_fails, at every size). C85_partial: Close and calls with a reply return if no decode uses the connection; '
            'requests are sent if no encode does, or if they only call Close. In the other cases the calls are stuck for ever in every execution: C85_encode, C85_encodeDo, C85_decode, C85_decodeDo, C85_decodeClose.'),
    'C86': (Q, 'False of the code (C86_fails, C86_unbounded: with 8 bytes received messageLoop, woken for nothing, reads all cells of the ring buffer as frames). '
        'C86_partial: at most 23 steps per byte, 7 per Read and 100 in the schedules in which each byte is read in time. C86_steps: steps per byte read, in all schedules. '
        'C86_rounds, C86_rest: in all schedules messageLoop goes round the ring buffer at most once per step of readLoop, so both come to rest; C86_quiet: they do in all infinite executions. Missing: a bound that does not grow with the ring buffer in the other schedules.'),
    'C87': (P, 'C87_steps (all message types), C87_reply (all methods); C87_counts, C87_reply_counts: counting aside it is Decode; C87_ok: two per byte of the message when it is decoded; C87_tight: the bound is met. What make does to the memory it returns is not counted (that is C64).'),
    'C89': (Q, 'False as stated (C89_fails): what has been decoded before the error is in the response, and arrays have their full length, zeros standing for what has not come; C89_exact: the claim holds exactly of the three methods whose response is one number (UpdateMetadata, Heartbeat and LeaveGroup at version 0); C89_deleted: in a reply to DeleteTopics that is cut off all topics not yet read have no error. C89_cut_partial: with a reply cut off at any byte exactly what is there whole comes with the error, and zeros (C89_messages: of all 218 message types; C89_items, C89_cut_whole on the specification); C89_unanswered: nothing if the connection fails; C89_whole, C89_same: without an error the response is the one that was sent. C89_part_partial, C89_part_messages: with any bytes at all, the response is a beginning of each response that the reply can be the beginning of, and zeros (C89_part_deleted for DeleteTopics). Missing: which beginning, for replies that are not the beginning of a proper one, and replies that nothing can be put behind (C91).'),
    'C90': (P, 'C90_more, C90_panic (more bytes), C90_fewer, C90_error (fewer bytes), of all 218 message types; C90_method of the methods of Broker.'),
    'C91': (Q, 'False as stated (C91_fails): of a reply to SaslAuthenticate of which the first byte of a length has come that makes it negative, any continuation panics. C91_missing: the error is the one of missing data, and bytes are missing. C91_zeros, C91_response_partial: with 2^38 zeros behind, any bytes are decoded or make Decode panic; C91_exact, C91_list: the claim holds exactly of the methods that no reply can make panic.'),
    'C92': (Q, 'False of the code: the length of a string is written modulo 65536 and nothing is refused (C92_fails). C92_partial: proved for requests that are messages of the protocol; C92_other: no other request is read as what was asked for, so each is rejected by the broker or taken for another. C92_coordinator: for any key of a group or transaction there is one such that to ask for its coordinator is to ask for that of the first; C92_delete: for any topics there is a name such that to delete it is to delete those; C92_create: the same of topics to create, with their configurations, and no byte left over.'),
    'C93': (Q, 'False as stated (C93_fails, C93_fails_null): a null string is written as an empty one, a negative number of structures as 0, and a bool that is neither 0 nor 1 as false. C93_partial: as many bytes, differing only where a zero is written, and the lengths are representable; C93_size: Size is the number of bytes read; C93_exact: the bytes are the same exactly if Encode writes them for some message; C93_again, C93_settled: what is written is read again and from then on written unchanged; C93_same: the message read again is the same if the bytes were the same, and need not be otherwise (C93_same_fails: nil has become empty). C93_reply, C93_request: the replies and requests of the protocol in which nothing is null are written as they were.'),
    'C94': (Q, 'False as stated: at flexible versions (C94_flexible_fails, all 24 of them) and for nil slices of scalars where the protocol has no null (C94_nil_fails). C94_partial: true otherwise, for all APIs, versions, ids and replies; C94_returned: a method of this client returns the reply at every version. C94_flexible_never: at flexible versions no reply at all is written as the protocol says; C94_exact: exactly when.'),
    'C95': (Q, 'False as stated: at flexible versions (C95_flexible_fails, all 24 of them), for OffsetCommit version 1 (C95_commit_fails) and null byte strings, on which Decode panics (C95_null_fails). C95_partial: true otherwise; C95_cut: a request cut anywhere is an error. C95_exact: at versions that are not flexible null byte strings are exactly what is missing (OffsetCommit version 1 apart), and they always panic (C95_null_panics).'),
    'C96': (Q, 'False of OffsetCommit version 1, which the code reads without the timestamp (C96_fails, C96_commit_fails: a cut request is accepted). C96_partial: true of all else; C96_returns, C96_short and C96_panics: exactly when; C96_immune and C96_body_immune_list: which requests cannot crash their reader; C96_all, C96_flexible and C96_immune_all: the same at all versions and for OffsetCommit, with the schemas as the package has them.'),
    'C88': (P, 'C88_writes (all functions and networks), C88_one (exactly one up to 4096 bytes), C88_none, C88_total (all requests of a connection), C88_request (the methods of Broker). bufio.Writer is modelled from the standard library of Go 1.13 (Verif/Message/Bufio.lean).'),
}


def main():
    thms = {}
    for f in sorted(glob.glob(os.path.join(ROOT, 'lean/Verif/Props/*.lean'))):
        for m in re.finditer(r'^theorem (C(\d\d)\w*)', open(f).read(), re.M):
            thms.setdefault('C' + m.group(2), []).append('Kafka.Props.' + m.group(1))
    claims = []
    for line in open(os.path.join(ROOT, 'properties.jsonl')):
        c = json.loads(line)['id']
        if c not in thms:
            continue
        status, note = CLAIMS[c]
        claims.append({'property': c, 'status': status, 'theorems': thms[c], 'note': note})
    json.dump({'claims': claims}, open(os.path.join(ROOT, 'MANIFEST.json'), 'w'), indent=1)
    print(len(claims), 'claims')


main()
