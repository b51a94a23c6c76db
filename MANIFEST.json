{
 "claims": [
  {
   "property": "C01",
   "status": "proved",
   "theorems": [
    "Kafka.Props.C01_bool",
    "Kafka.Props.C01_int8",
    "Kafka.Props.C01_int16",
    "Kafka.Props.C01_int32",
    "Kafka.Props.C01_int64"
   ],
   "note": ""
  },
  {
   "property": "C02",
   "status": "partial",
   "theorems": [
    "Kafka.Props.C02_exact",
    "Kafka.Props.C02_string_partial",
    "Kafka.Props.C02_fails"
   ],
   "note": "False of the code beyond 32767 bytes (C02_fails); proved up to there (C02_exact)."
  },
  {
   "property": "C03",
   "status": "partial",
   "theorems": [
    "Kafka.Props.C03_exact",
    "Kafka.Props.C03_nullableString_partial",
    "Kafka.Props.C03_fails",
    "Kafka.Props.C03_never_nil"
   ],
   "note": "False of the code for nil (C03_fails, C03_never_nil); proved for all non-nil values that fit (C03_exact)."
  },
  {
   "property": "C04",
   "status": "proved",
   "theorems": [
    "Kafka.Props.C04_bytes"
   ],
   "note": "nil is read back as empty, as in the statement."
  },
  {
   "property": "C05",
   "status": "proved",
   "theorems": [
    "Kafka.Props.C05_int32Array",
    "Kafka.Props.C05_int64Array",
    "Kafka.Props.C05_stringArray"
   ],
   "note": ""
  },
  {
   "property": "C06",
   "status": "proved",
   "theorems": [
    "Kafka.Props.C06_varInt"
   ],
   "note": ""
  },
  {
   "property": "C07",
   "status": "partial",
   "theorems": [
    "Kafka.Props.C07_exact",
    "Kafka.Props.C07_varBytes",
    "Kafka.Props.C07_varString_partial",
    "Kafka.Props.C07_fails"
   ],
   "note": "Bytes proved; strings false for invalid UTF-8 (C07_fails), proved for strings that are valid UTF-8; C07_exact: for no others."
  },
  {
   "property": "C08",
   "status": "partial",
   "theorems": [
    "Kafka.Props.C08_bool",
    "Kafka.Props.C08_int8",
    "Kafka.Props.C08_int16",
    "Kafka.Props.C08_int32",
    "Kafka.Props.C08_int64",
    "Kafka.Props.C08_string",
    "Kafka.Props.C08_nullableString",
    "Kafka.Props.C08_bytes",
    "Kafka.Props.C08_int32Array",
    "Kafka.Props.C08_int64Array",
    "Kafka.Props.C08_stringArray",
    "Kafka.Props.C08_varInt_partial",
    "Kafka.Props.C08_varBytes_partial",
    "Kafka.Props.C08_varString_partial",
    "Kafka.Props.C08_fails",
    "Kafka.Props.C08_varInt_exact",
    "Kafka.Props.C08_varInt_stale_exact"
   ],
   "note": "Fixed-size values, strings, bytes and arrays proved; the varint reader reads past the declared length (C08_fails), proved when the declared length is the buffer. C08_varInt_exact, C08_varInt_stale_exact: exactly when VarInt rejects, whatever lies behind the declared length (when none of those bytes ends the varint)."
  },
  {
   "property": "C09",
   "status": "partial",
   "theorems": [
    "Kafka.Props.C09_fails",
    "Kafka.Props.C09_never_reported",
    "Kafka.Props.C09_partial"
   ],
   "note": "False of the code: overflow is never reported (C09_fails, C09_never_reported); C09_partial says what happens instead."
  },
  {
   "property": "C10",
   "status": "partial",
   "theorems": [
    "Kafka.Props.C10_fails",
    "Kafka.Props.C10_partial",
    "Kafka.Props.C10_string_iff",
    "Kafka.Props.C10_bytes_iff",
    "Kafka.Props.C10_int32Array_iff",
    "Kafka.Props.C10_int64Array_iff",
    "Kafka.Props.C10_string_panics",
    "Kafka.Props.C10_bytes_panics",
    "Kafka.Props.C10_array_panics",
    "Kafka.Props.C10_varBytes_panics"
   ],
   "note": "False of the code for negative lengths (C10_fails); C10_partial: no panic without a byte that has its top bit set; the exact conditions are C10_string_iff, C10_bytes_iff, C10_int32Array_iff, C10_int64Array_iff and, for the replies of all methods, C60_panics."
  },
  {
   "property": "C11",
   "status": "proved",
   "theorems": [
    "Kafka.Props.C11_messages",
    "Kafka.Props.C11_errors",
    "Kafka.Props.C11_varInt_fails"
   ],
   "note": "For every message type; the varint reader, which no message uses, violates it (C11_varInt_fails)."
  },
  {
   "property": "C12",
   "status": "partial",
   "theorems": [
    "Kafka.Props.C12_broken_partial",
    "Kafka.Props.C12_sticky_partial",
    "Kafka.Props.C12_varBytes_fails",
    "Kafka.Props.C12_varString_fails"
   ],
   "note": "False of PutVarBytes and PutVarString (C12_varBytes_fails, C12_varString_fails); proved for all other calls. C12_broken_partial: proved for all calls, these included, over writers that stay broken once a write has failed, as network connections do."
  },
  {
   "property": "C13",
   "status": "proved",
   "theorems": [
    "Kafka.Props.C13_size",
    "Kafka.Props.C13_size_exact"
   ],
   "note": ""
  },
  {
   "property": "C14",
   "status": "proved",
   "theorems": [
    "Kafka.Props.C14_roundtrip",
    "Kafka.Props.C14_roundtrip_exact",
    "Kafka.Props.C14_stable"
   ],
   "note": ""
  },
  {
   "property": "C15",
   "status": "proved",
   "theorems": [
    "Kafka.Props.C15_self_delimiting",
    "Kafka.Props.C15_injective"
   ],
   "note": ""
  },
  {
   "property": "C16",
   "status": "proved",
   "theorems": [
    "Kafka.Props.C16_truncated"
   ],
   "note": ""
  },
  {
   "property": "C17",
   "status": "proved",
   "theorems": [
    "Kafka.Props.C17_absent",
    "Kafka.Props.C17_field",
    "Kafka.Props.C17_present",
    "Kafka.Props.C17_same_bytes"
   ],
   "note": "For each of the 150 version-dependent fields."
  },
  {
   "property": "C18",
   "status": "proved",
   "theorems": [
    "Kafka.Props.C18_frame",
    "Kafka.Props.C18_appended"
   ],
   "note": ""
  },
  {
   "property": "C19",
   "status": "proved",
   "theorems": [
    "Kafka.Props.C19_header",
    "Kafka.Props.C19_response",
    "Kafka.Props.C19_distinct"
   ],
   "note": ""
  },
  {
   "property": "C20",
   "status": "proved",
   "theorems": [
    "Kafka.Props.C20_stream",
    "Kafka.Props.C20_body"
   ],
   "note": ""
  },
  {
   "property": "C21",
   "status": "proved",
   "theorems": [
    "Kafka.Props.C21_mutual"
   ],
   "note": ""
  },
  {
   "property": "C22",
   "status": "partial",
   "theorems": [
    "Kafka.Props.C22_partial",
    "Kafka.Props.C22_list_partial",
    "Kafka.Props.C22_newer_fails",
    "Kafka.Props.C22_fails",
    "Kafka.Props.C22_exact"
   ],
   "note": "False of the code when the broker is newer than the library (C22_fails, C22_newer_fails); proved otherwise; C22_exact: negotiation succeeds exactly if the highest versions of the broker are known to the library and within its ranges."
  },
  {
   "property": "C23",
   "status": "partial",
   "theorems": [
    "Kafka.Props.C23_partial",
    "Kafka.Props.C23_exact",
    "Kafka.Props.C23_fails"
   ],
   "note": "False of the code for a lower end of -32768 (C23_fails); exact characterisation in C23_exact."
  },
  {
   "property": "C24",
   "status": "proved",
   "theorems": [
    "Kafka.Props.C24_unknown",
    "Kafka.Props.C24_missing",
    "Kafka.Props.C24_repeated",
    "Kafka.Props.C24_incompatible",
    "Kafka.Props.C24_error"
   ],
   "note": ""
  },
  {
   "property": "C25",
   "status": "partial",
   "theorems": [
    "Kafka.Props.C25_cells",
    "Kafka.Props.C25_fails",
    "Kafka.Props.C25_partial",
    "Kafka.Props.C25_held_partial",
    "Kafka.Props.C25_noWait_partial",
    "Kafka.Props.C25_wake_partial",
    "Kafka.Props.C25_inTime_partial",
    "Kafka.Props.C25_exact"
   ],
   "note": "False of the code (C25_fails, for every capacity: a woken reader reads unwritten bytes); proved for every interleaving in which woken goroutines find what they waited for, in particular when each hand-over finds enough for the rest of the call, or nobody waits.  C25_exact: a schedule is one of a queue, whatever the bytes, exactly if each byte is read from the storage after it was put there and before the cell is used again. In every schedule (C25_cells) a byte returned is one written at a position that differs by a multiple of the capacity, or zero."
  },
  {
   "property": "C26",
   "status": "proved",
   "theorems": [
    "Kafka.Props.C26_queue",
    "Kafka.Props.C26_full",
    "Kafka.Props.C26_empty"
   ],
   "note": ""
  },
  {
   "property": "C27",
   "status": "partial",
   "theorems": [
    "Kafka.Props.C27_fails",
    "Kafka.Props.C27_partial",
    "Kafka.Props.C27_resumes",
    "Kafka.Props.C27_exact"
   ],
   "note": "False of the code for single bytes (C27_fails, for every capacity); proved for two bytes or more in every interleaving; C27_exact: a single byte wakes the reader exactly if it fills the buffer."
  },
  {
   "property": "C28",
   "status": "partial",
   "theorems": [
    "Kafka.Props.C28_fails",
    "Kafka.Props.C28_partial",
    "Kafka.Props.C28_only",
    "Kafka.Props.C28_fresh_partial"
   ],
   "note": "False of the code (C28_fails, for every capacity); proved when check and Wait are not separated, or at least the buffer is still full (empty) when the flag of Wait is set (C28_fresh_partial), and mutual waiting is the only deadlock (C28_only)."
  },
  {
   "property": "C29",
   "status": "proved",
   "theorems": [
    "Kafka.Props.C29_release",
    "Kafka.Props.C29_wait",
    "Kafka.Props.C29_hand"
   ],
   "note": ""
  },
  {
   "property": "C30",
   "status": "proved",
   "theorems": [
    "Kafka.Props.C30_write",
    "Kafka.Props.C30_read"
   ],
   "note": ""
  },
  {
   "property": "C31",
   "status": "proved",
   "theorems": [
    "Kafka.Props.C31_indices"
   ],
   "note": ""
  },
  {
   "property": "C32",
   "status": "partial",
   "theorems": [
    "Kafka.Props.C32_window_partial",
    "Kafka.Props.C32_oneByOne_partial",
    "Kafka.Props.C32_reply",
    "Kafka.Props.C32_ids_partial",
    "Kafka.Props.C32_ids_fails",
    "Kafka.Props.C32_ids_false"
   ],
   "note": "Reply proved (C32_reply). Unique ids are false after 2^32 calls even with two calls outstanding (C32_ids_fails); proved for the first 2^32 calls (C32_ids_partial), as long as no call is outstanding while 2^32 others are made (C32_window_partial), and for any number of calls made one at a time (C32_oneByOne_partial)."
  },
  {
   "property": "C33",
   "status": "proved",
   "theorems": [
    "Kafka.Props.C33_once",
    "Kafka.Props.C33_send",
    "Kafka.Props.C33_unknown"
   ],
   "note": ""
  },
  {
   "property": "C34",
   "status": "partial",
   "theorems": [
    "Kafka.Props.C34_apart_partial",
    "Kafka.Props.C34_apart_found",
    "Kafka.Props.C34_partial",
    "Kafka.Props.C34_found",
    "Kafka.Props.C34_fails"
   ],
   "note": "False of the code after 2^32 calls (C34_fails); proved unless a call with the same id replaced the entry, so for the first 2^32 calls (C34_partial, C34_found), and for calls outstanding on any connection on which no two calls outstanding have had the same id (C34_apart_partial, C34_apart_found)."
  },
  {
   "property": "C35",
   "status": "proved",
   "theorems": [
    "Kafka.Props.C35_wire",
    "Kafka.Props.C35_flushed",
    "Kafka.Props.C35_requests"
   ],
   "note": "Including that the bytes parse as the requests of the API calls (C35_requests)."
  },
  {
   "property": "C36",
   "status": "partial",
   "theorems": [
    "Kafka.Props.C36_gone",
    "Kafka.Props.C36_close_fails",
    "Kafka.Props.C36_fails",
    "Kafka.Props.C36_peer_fails",
    "Kafka.Props.C36_partial",
    "Kafka.Props.C36_flush_partial",
    "Kafka.Props.C36_fair_partial",
    "Kafka.Props.C36_fair"
   ],
   "note": "False of the code: a call waiting for its reply waits for ever after Close (C36_close_fails) and after the peer closes (C36_peer_fails); proved for calls that have not started writing when raw is closed (C36_partial: they can go on to return an error and never wait for a reply; C36_fair_partial: they do return it in every fair execution), and for write errors; C36_fair: after Close every call returns or waits for a reply for ever. C36_gone: after the peer has closed the connection, calls return replies received whole before and no others."
  },
  {
   "property": "C37",
   "status": "partial",
   "theorems": [
    "Kafka.Props.C37_cells",
    "Kafka.Props.C37_partial",
    "Kafka.Props.C37_short",
    "Kafka.Props.C37_fails",
    "Kafka.Props.C37_inTime_partial"
   ],
   "note": "False of the code in schedules in which a woken reader runs ahead in the ring buffer (C37_fails, for all sizes); proved for all others (C37_partial); short frames are skipped in all (C37_short). C37_inTime_partial: proved for all schedules in which each byte of the ring buffer is read after it was put there and before its place is used again. C37_cells: in every schedule the frames consist of received bytes and zeros."
  },
  {
   "property": "C38",
   "status": "partial",
   "theorems": [
    "Kafka.Props.C38_oversize_fails",
    "Kafka.Props.C38_fails",
    "Kafka.Props.C38_partial",
    "Kafka.Props.C38_received_partial",
    "Kafka.Props.C38_stream_fails",
    "Kafka.Props.C38_inTime_partial"
   ],
   "note": "False of the code for lengths above the 2000000 byte buffer (C38_fails, C38_oversize_fails); C38_partial: no other length crashes. C38_received_partial: in the schedules of C25 the cause is in the bytes received (a frame announced longer than the buffer and more than that received of it, or a reply on which a decode function panics); C38_stream_fails: every stream with such a frame can crash the program. C38_inTime_partial: the same in all schedules in which each byte of the ring buffer is read in time."
  },
  {
   "property": "C39",
   "status": "partial",
   "theorems": [
    "Kafka.Props.C39_first",
    "Kafka.Props.C39_all",
    "Kafka.Props.C39_metadata",
    "Kafka.Props.C39_metadata_none",
    "Kafka.Props.C39_lookups_none",
    "Kafka.Props.C39_coordinator",
    "Kafka.Props.C39_cases",
    "Kafka.Props.C39_failover",
    "Kafka.Props.C39_empty",
    "Kafka.Props.C39_fails",
    "Kafka.Props.C39_empty_coordinator",
    "Kafka.Props.C39_partial"
   ],
   "note": "False for the empty bootstrap list (C39_fails): Metadata returns an empty response without an error or a dial; proved for every other list."
  },
  {
   "property": "C40",
   "status": "partial",
   "theorems": [
    "Kafka.Props.C40_leader",
    "Kafka.Props.C40_leader_none",
    "Kafka.Props.C40_leader_found",
    "Kafka.Props.C40_controller",
    "Kafka.Props.C40_no_metadata",
    "Kafka.Props.C40_sent",
    "Kafka.Props.C40_answer",
    "Kafka.Props.C40_controller_fails",
    "Kafka.Props.C40_coordinator_partial",
    "Kafka.Props.C40_coordinator_fails",
    "Kafka.Props.C40_address",
    "Kafka.Props.C40_address_inj"
   ],
   "note": "Leader and controller lookup follow the metadata; false of a version 0 controller (C40_controller_fails) and of a coordinator lookup that returned an error code (C40_coordinator_fails)."
  },
  {
   "property": "C41",
   "status": "proved",
   "theorems": [
    "Kafka.Props.C41_config",
    "Kafka.Props.C41_order",
    "Kafka.Props.C41_effect"
   ],
   "note": ""
  },
  {
   "property": "C42",
   "status": "partial",
   "theorems": [
    "Kafka.Props.C42_partial",
    "Kafka.Props.C42_excess",
    "Kafka.Props.C42_fails"
   ],
   "note": "False of the code for every batch with a record (C42_fails; C42_excess gives the exact excess); proved for batches without records."
  },
  {
   "property": "C43",
   "status": "partial",
   "theorems": [
    "Kafka.Props.C43_layout",
    "Kafka.Props.C43_panics",
    "Kafka.Props.C43_partial",
    "Kafka.Props.C43_fails",
    "Kafka.Props.C43_ambiguous",
    "Kafka.Props.C43_unreadable"
   ],
   "note": "Layout proved; the offset delta, record length and counts are not written (C43_fails, C43_ambiguous, C43_unreadable); everything else is read back by a reader that knows the counts."
  },
  {
   "property": "C44",
   "status": "proved",
   "theorems": [
    "Kafka.Props.C44_range",
    "Kafka.Props.C44_get"
   ],
   "note": ""
  },
  {
   "property": "C45",
   "status": "partial",
   "theorems": [
    "Kafka.Props.C45_never",
    "Kafka.Props.C45_metadata",
    "Kafka.Props.C45_fails",
    "Kafka.Props.C45_partial"
   ],
   "note": "False of the code (C45_never, C45_fails): nothing is ever closed."
  },
  {
   "property": "C46",
   "status": "partial",
   "theorems": [
    "Kafka.Props.C46_ignored",
    "Kafka.Props.C46_fails",
    "Kafka.Props.C46_partial"
   ],
   "note": "False of the code (C46_ignored, C46_fails): the error code is not looked at; C46_partial: the versions are the negotiated ones."
  },
  {
   "property": "C47",
   "status": "partial",
   "theorems": [
    "Kafka.Props.C47_meaning_partial",
    "Kafka.Props.C47_flexible_never",
    "Kafka.Props.C47_exact",
    "Kafka.Props.C47_partial",
    "Kafka.Props.C47_flexible_fails",
    "Kafka.Props.C47_commit_fails",
    "Kafka.Props.C47_shutdown_fails",
    "Kafka.Props.C47_nil_fails",
    "Kafka.Props.C47_fails"
   ],
   "note": "False of the code at flexible versions (C47_flexible_fails; C47_flexible_never: of no request there), for OffsetCommit version 1 (C47_commit_fails), ControlledShutdown version 0 (C47_shutdown_fails) and nil slices where the protocol has no null (C47_nil_fails); C47_partial: proved for everything else; C47_exact: for nothing but that. C47_meaning_partial: there the bytes of a request are those of no other message of the protocol: what is read has the API, the version and in all fields of that version the values of the request."
  },
  {
   "property": "C48",
   "status": "partial",
   "theorems": [
    "Kafka.Props.C48_null_panics",
    "Kafka.Props.C48_exact",
    "Kafka.Props.C48_partial",
    "Kafka.Props.C48_null_fails",
    "Kafka.Props.C48_flexible_fails"
   ],
   "note": "False of the code at flexible versions (C48_flexible_fails) and for null byte strings, which panic (C48_null_fails); C48_partial: proved for everything else. At versions that are not flexible null byte strings are exactly what is missing, for every method (C48_exact), and they always panic (C48_null_panics)."
  },
  {
   "property": "C49",
   "status": "partial",
   "theorems": [
    "Kafka.Props.C49_partial",
    "Kafka.Props.C49_fails",
    "Kafka.Props.C49_inTime_partial"
   ],
   "note": "False of the code at flexible versions (C49_fails, for all sizes), and where C25, C47 or C48 fail; C49_partial: proved for everything else. C49_inTime_partial: the same in all schedules in which each byte of the ring buffer is read in time."
  },
  {
   "property": "C50",
   "status": "partial",
   "theorems": [
    "Kafka.Props.C50_partial",
    "Kafka.Props.C50_fails",
    "Kafka.Props.C50_exact",
    "Kafka.Props.C50_short"
   ],
   "note": "False of the code (C50_fails, for all sizes): the slice is a part of the buffer into which messageLoop reads; C50_partial: proved until messageLoop reads another byte. C50_exact: exactly when a slice has its contents after any further frames (each byte is the same in the last frame long enough to have it), in all schedules, except while the payload of a frame is being read; C50_short: it is kept while the frames read end before it."
  },
  {
   "property": "C51",
   "status": "partial",
   "theorems": [
    "Kafka.Props.C51_fair",
    "Kafka.Props.C51_fair_partial",
    "Kafka.Props.C51_fair_woken_partial",
    "Kafka.Props.C51_received",
    "Kafka.Props.C51_received_partial",
    "Kafka.Props.C51_prompt_partial",
    "Kafka.Props.C51_partial",
    "Kafka.Props.C51_fails",
    "Kafka.Props.C51_idle",
    "Kafka.Props.C51_fair_fails",
    "Kafka.Props.C51_deadlock_fails"
   ],
   "note": "False of the code when the reply arrives in reads of one byte while messageLoop waits (C51_fails, for all sizes); proved when messageLoop is between two frames, whatever is before the reply (C51_partial), and for a call on an idle connection (C51_idle). In infinite fair executions (C51_fair): the reply is returned, or messageLoop waits for ever for bytes that are there and the peer never again sends two bytes together; so it is returned when messageLoop is not waiting (C51_fair_partial) and when it waits and two bytes come together (C51_fair_woken_partial); without that the claim is false there too (C51_fair_fails). For replies that have been received, whether or not readLoop has handed them over: C51_received says they are returned, or messageLoop waits for ever and either no two bytes are received together any more or readLoop waits for ever too; both happen (C51_fair_fails, C51_deadlock_fails); C51_received_partial is what is left. C51_prompt_partial: a reply that ends in a read of two bytes or more while messageLoop waits, with which the buffer is not full, is returned."
  },
  {
   "property": "C52",
   "status": "partial",
   "theorems": [
    "Kafka.Props.C52_partial",
    "Kafka.Props.C52_running",
    "Kafka.Props.C52_reply_fails",
    "Kafka.Props.C52_fails",
    "Kafka.Props.C52_exact"
   ],
   "note": "False of the code when Read returns bytes along with an error (C52_fails; C52_reply_fails: it may be the reply to a waiting call, which then waits for ever); proved otherwise (C52_partial) and while readLoop runs (C52_running). C52_exact: exactly what is dropped, and that the claim is true of no other schedules."
  },
  {
   "property": "C53",
   "status": "proved",
   "theorems": [
    "Kafka.Props.C53_ended",
    "Kafka.Props.C53_returns",
    "Kafka.Props.C53_bounded",
    "Kafka.Props.C53_fair"
   ],
   "note": "What Close has established when it returns (C53_ended), that it can return (C53_returns), that it does in every fair execution (C53_fair) and a bound on the steps of both goroutines after the network connection is closed (C53_bounded)."
  },
  {
   "property": "C54",
   "status": "partial",
   "theorems": [
    "Kafka.Props.C54_partial",
    "Kafka.Props.C54_fails",
    "Kafka.Props.C54_inTime_partial"
   ],
   "note": "False of the code: a reply cut short by Close is returned as if complete (C54_fails, at every size); proved for schedules in which nobody woken in the ring buffer runs ahead (C54_partial). C54_inTime_partial: proved for all schedules in which each byte of the ring buffer is read in time."
  },
  {
   "property": "C55",
   "status": "partial",
   "theorems": [
    "Kafka.Props.C55_partial",
    "Kafka.Props.C55_fails",
    "Kafka.Props.C55_exact",
    "Kafka.Props.C55_leftover_partial"
   ],
   "note": "False of the code: once more has been received than the ring buffer holds, Close lets messageLoop take old bytes for the size of a frame and panic (C55_fails, at every size); proved as long as no more has been received (C55_partial). C55_exact: an idle connection can crash without receiving more if and only if the four bytes behind the last one received, left in the ring buffer from before, are a size greater than the buffer; C55_leftover_partial: proved otherwise."
  },
  {
   "property": "C56",
   "status": "partial",
   "theorems": [
    "Kafka.Props.C56_only",
    "Kafka.Props.C56_partial",
    "Kafka.Props.C56_ring_fails",
    "Kafka.Props.C56_reply_fails"
   ],
   "note": "False of the code: messageLoop, woken, may read a byte of the ring buffer that readLoop is writing (C56_ring_fails), and may write the result of a method that is returning because its write failed (C56_reply_fails), both at every size; C56_only: there are no other races; C56_partial: none at all when nobody woken runs ahead and no write fails."
  },
  {
   "property": "C57",
   "status": "proved",
   "theorems": [
    "Kafka.Props.C57_sticky"
   ],
   "note": ""
  },
  {
   "property": "C58",
   "status": "partial",
   "theorems": [
    "Kafka.Props.C58_partial",
    "Kafka.Props.C58_grows",
    "Kafka.Props.C58_fails",
    "Kafka.Props.C58_exact",
    "Kafka.Props.C58_leaks"
   ],
   "note": "False of the code for calls whose request could not be written (C58_fails; C58_grows: any number of them); proved for calls that return a reply or an error of decoding it (C58_partial). C58_exact: which calls are registered after they have returned (exactly those messageLoop has not taken to decode a reply, when no other call has had the id); C58_leaks: in every execution a call whose request could not be written is registered for as long as no frame with its id is read and no other call has its id."
  },
  {
   "property": "C59",
   "status": "proved",
   "theorems": [
    "Kafka.Props.C59_methods",
    "Kafka.Props.C59_send",
    "Kafka.Props.C59_broken",
    "Kafka.Props.C59_machine"
   ],
   "note": "C59_send and C59_broken about the writer, for every function C59_methods covers; C59_machine: the machine of the connection does the same."
  },
  {
   "property": "C60",
   "status": "proved",
   "theorems": [
    "Kafka.Props.C60_outcome",
    "Kafka.Props.C60_returns",
    "Kafka.Props.C60_fails",
    "Kafka.Props.C60_panics",
    "Kafka.Props.C60_crash_bytes",
    "Kafka.Props.C60_immune",
    "Kafka.Props.C60_immune_list",
    "Kafka.Props.C60_all",
    "Kafka.Props.C60_immune_all"
   ],
   "note": "C60_outcome, and for CreateTopics at version 5 too, with the schema as the package has it, C60_all; C60_immune and C60_immune_list: which methods a broker can crash (C60_immune_all: at all versions); reads_protocol (Props/Decode.lean): the specification reads what the protocol writes."
  },
  {
   "property": "C61",
   "status": "proved",
   "theorems": [
    "Kafka.Props.C61_proceeds",
    "Kafka.Props.C61_registers",
    "Kafka.Props.C61_takes",
    "Kafka.Props.C61_stalls"
   ],
   "note": "C61_proceeds and C61_registers; C61_stalls shows that the assumption about the network is needed: there are no deadlines, so a peer that stops reading holds up every call."
  },
  {
   "property": "C62",
   "status": "partial",
   "theorems": [
    "Kafka.Props.C62_partial",
    "Kafka.Props.C62_newer_fails",
    "Kafka.Props.C62_flexible_fails",
    "Kafka.Props.C62_absent_fails",
    "Kafka.Props.C62_kafka24",
    "Kafka.Props.C62_fails"
   ],
   "note": "False of the code with brokers newer than the library and at flexible versions (C62_fails, C62_newer_fails, C62_flexible_fails; of the 48 APIs of Kafka 2.4 itself 24, C62_kafka24); an API the broker does not have is used at version 0 (C62_absent_fails); proved otherwise (C62_partial), with the exceptions of C47 and C48."
  },
  {
   "property": "C63",
   "status": "partial",
   "theorems": [
    "Kafka.Props.C63_exact",
    "Kafka.Props.C63_colon_fails",
    "Kafka.Props.C63_fails",
    "Kafka.Props.C63_partial"
   ],
   "note": "False of the code for hosts with colons (C63_fails, C63_colon_fails); C63_exact: true exactly for hosts without colons and brackets; net.JoinHostPort would do (joinHostPort_denotes)."
  },
  {
   "property": "C64",
   "status": "partial",
   "theorems": [
    "Kafka.Props.C64_counts",
    "Kafka.Props.C64_partial",
    "Kafka.Props.C64_bound",
    "Kafka.Props.C64_array_fails",
    "Kafka.Props.C64_scalars",
    "Kafka.Props.C64_exact",
    "Kafka.Props.C64_fails",
    "Kafka.Props.C64_methods"
   ],
   "note": "False of the code: fewer than 24 bytes make every method whose reply has an array ask for 2147483647 elements (C64_fails, C64_array_fails); C64_exact: at the versions of the protocol true exactly of the replies without arrays (11 of 48 methods, C64_methods); proved of all replies that are decoded without error (C64_partial), and a bound for all bytes (C64_bound)."
  },
  {
   "property": "C65",
   "status": "partial",
   "theorems": [
    "Kafka.Props.C65_returns",
    "Kafka.Props.C65_partial",
    "Kafka.Props.C65_read",
    "Kafka.Props.C65_fails",
    "Kafka.Props.C65_whole_partial",
    "Kafka.Props.C65_race_fails"
   ],
   "note": "Executions in which no two calls outstanding have the same id (else C34_fails), whatever the number of calls. False of the code: a reply that comes byte by byte is never returned (C65_fails, for all sizes from 16 and 8 on), nor one that comes in one piece between the moment messageLoop finds nothing and the moment it begins to wait (C65_race_fails).  C65_returns: in the schedules of C25 the call returns, or messageLoop waits in ReadN for ever although the reply has been received, and either no two bytes are received together any more or readLoop waits for ever too; C65_partial: so it returns if, whenever messageLoop waits while a call does, two bytes or more are received together later; C65_whole_partial: it returns when the peer answers in whole frames and messageLoop does not begin to wait while there is something for it. C65_read: in every schedule a call returns when messageLoop reads a frame with its id."
  },
  {
   "property": "C66",
   "status": "partial",
   "theorems": [
    "Kafka.Props.C66_partial",
    "Kafka.Props.C66_fails"
   ],
   "note": "False of the code at every size (C66_fails): readLoop publishes a reply, messageLoop reads it and waits for the next, now readLoop looks, and wakes it for nothing; messageLoop reads a frame that was never sent.  C66_partial: true when messageLoop does not begin to wait between the two steps in which readLoop publishes and looks."
  },
  {
   "property": "C67",
   "status": "partial",
   "theorems": [
    "Kafka.Props.C67_partial",
    "Kafka.Props.C67_ipv6_fails",
    "Kafka.Props.C67_fails"
   ],
   "note": "Proved for clusters whose nodes' highest versions the library knows, with Metadata (from version 1) and FindCoordinator not flexible, whose hosts have no colons, on networks that refuse connections to :-1. Missing because false: nodes at hosts with colons are never connected to (C67_ipv6_fails; C67_fails), newer brokers and flexible versions (C62), the controller at Metadata version 0 (C40), and the error code of FindCoordinator, which is ignored (C40)."
  },
  {
   "property": "C68",
   "status": "partial",
   "theorems": [
    "Kafka.Props.C68_partial",
    "Kafka.Props.C68_answered",
    "Kafka.Props.C68_silent",
    "Kafka.Props.C68_fails"
   ],
   "note": "False of the code, which does not look at the contexts: a bootstrap broker that accepts the connection and does not answer holds up every operation for ever (C68_fails, C68_silent). C68_partial: an operation that waits for ever has just sent a request that is never answered or been told versions on which negotiation does not end (C23); C68_answered: with brokers that answer all operations end."
  },
  {
   "property": "C69",
   "status": "proved",
   "theorems": [
    "Kafka.Props.C69_metadata",
    "Kafka.Props.C69_bounded",
    "Kafka.Props.C69_apis"
   ],
   "note": "C69_bounded, C69_metadata, C69_apis."
  },
  {
   "property": "C70",
   "status": "proved",
   "theorems": [
    "Kafka.Props.C70_ids",
    "Kafka.Props.C70_wire",
    "Kafka.Props.C70_asked",
    "Kafka.Props.C70_model",
    "Kafka.Props.C70_panics",
    "Kafka.Props.C70_answered",
    "Kafka.Props.C70_realised"
   ],
   "note": "C70_ids, C70_wire, C70_asked, C70_model; C70_model and C70_panics connect the model of a connection with that of client.go: what has happened to a call is what doCall does with the corresponding reply; C70_answered and C70_realised: everything the model of client.go allows to become of a request can happen on the connection."
  },
  {
   "property": "C71",
   "status": "partial",
   "theorems": [
    "Kafka.Props.C71_asks",
    "Kafka.Props.C71_partial",
    "Kafka.Props.C71_creates",
    "Kafka.Props.C71_all",
    "Kafka.Props.C71_fails_create",
    "Kafka.Props.C71_fails_all",
    "Kafka.Props.C71_flexible"
   ],
   "note": "False of the code below version 4 of Metadata, where every request that names a topic lets the broker create it (C71_creates, C71_fails_create), and at version 0, where a call that names no topic asks about all of them (C71_all, C71_fails_all); C71_partial: proved from version 4 on. C71_asks says exactly what the requests mean at every version that is not flexible; C71_flexible: at version 9 a call that names no topic writes a request about all topics, and a byte more."
  },
  {
   "property": "C72",
   "status": "partial",
   "theorems": [
    "Kafka.Props.C72_record_partial",
    "Kafka.Props.C72_fails",
    "Kafka.Props.C72_partial",
    "Kafka.Props.C72_rejected"
   ],
   "note": "False of every batch: C72_fails (no batch with good records is read as what was meant, whatever the caller puts in; the number of records is not written), C72_rejected (batches without records, or whose first record has the first timestamp or is 64 to 8191 after it, are rejected by every reader of the format). Proved: C72_partial (the fixed part is as documented), C72_record_partial (the part of a record up to its headers). format_reads: the specification of the format is one that can be read."
  },
  {
   "property": "C73",
   "status": "partial",
   "theorems": [
    "Kafka.Props.C73_varInt",
    "Kafka.Props.C73_varBytes",
    "Kafka.Props.C73_varString",
    "Kafka.Props.C73_varInt_exact",
    "Kafka.Props.C73_varBytes_exact",
    "Kafka.Props.C73_varString_exact",
    "Kafka.Props.C73_partial",
    "Kafka.Props.C73_fails",
    "Kafka.Props.C73_varBytes_fails",
    "Kafka.Props.C73_varString_fails"
   ],
   "note": "False of the code: VarInt completes a number with bytes behind the declared length (C73_fails) and moves back on a number of more than 64 bits; VarBytes panics on a negative length (C73_varBytes_fails); VarString reads a length of -1 as an empty string and does not move, so that strings can be read without end (C73_varString_fails). What each does with any bytes: C73_varInt, C73_varBytes, C73_varString; when exactly that is orderly: C73_varInt_exact, C73_varBytes_exact, C73_varString_exact; C73_partial: orderly for numbers that fit, are not negative and end within the declared length."
  },
  {
   "property": "C74",
   "status": "partial",
   "theorems": [
    "Kafka.Props.C74_discard",
    "Kafka.Props.C74_partial",
    "Kafka.Props.C74_negative",
    "Kafka.Props.C74_fails",
    "Kafka.Props.C74_reset",
    "Kafka.Props.C74_reset_rest"
   ],
   "note": "False of the code for negative numbers, of which Discard moves back (C74_fails, C74_negative); C74_discard gives its outcome for every number; C74_partial: proved for all others. Reset: C74_reset, C74_reset_rest."
  },
  {
   "property": "C75",
   "status": "partial",
   "theorems": [
    "Kafka.Props.C75_never",
    "Kafka.Props.C75_fails"
   ],
   "note": "False of the code, which is a stub: C75_never (always nil without an error, and nothing happens), C75_fails. Nothing of the claim is true."
  },
  {
   "property": "C76",
   "status": "proved",
   "theorems": [
    "Kafka.Props.C76_one",
    "Kafka.Props.C76_is",
    "Kafka.Props.C76_text",
    "Kafka.Props.C76_newBroker",
    "Kafka.Props.C76_operation",
    "Kafka.Props.C76_method",
    "Kafka.Props.C76_insufficient"
   ],
   "note": "C76_one (one cause), C76_is (errors.Is finds it and nothing else), C76_text, C76_newBroker, C76_operation, C76_method (which cause it is), C76_insufficient."
  },
  {
   "property": "C77",
   "status": "partial",
   "theorems": [
    "Kafka.Props.C77_partial",
    "Kafka.Props.C77_receives_partial",
    "Kafka.Props.C77_fails",
    "Kafka.Props.C77_actual",
    "Kafka.Props.C77_open_fails"
   ],
   "note": "Both parts are proved for the schedules of C25 (no goroutine goes on after Wait without room or data): the bound in every reachable state, and that readLoop alone takes in what fits and then blocks; C77_actual is the second part at the sizes in the code. The bound is false of other schedules: between the closing of the ring buffer and of the network connection nothing stops readLoop (C77_fails, for all sizes), and without Close the writer overtakes the reader (C77_open_fails, if the ring buffer is larger than the two other buffers, as in the code)."
  },
  {
   "property": "C78",
   "status": "partial",
   "theorems": [
    "Kafka.Props.C78_outcome",
    "Kafka.Props.C78_value",
    "Kafka.Props.C78_all",
    "Kafka.Props.C78_exact",
    "Kafka.Props.C78_partial",
    "Kafka.Props.C78_own",
    "Kafka.Props.C78_fails"
   ],
   "note": "False of the code where an array of structures is null in the input: what was there before stays (C78_fails). C78_exact: of every message type, version and input, the claim holds exactly if no array of structures of the message itself is null; C78_partial is that half of it. Outcome and position never depend on the message (C78_outcome); C78_value says what it becomes in any case; C78_own: what Encode writes is always read as it should be."
  },
  {
   "property": "C79",
   "status": "partial",
   "theorems": [
    "Kafka.Props.C79_exact",
    "Kafka.Props.C79_partial",
    "Kafka.Props.C79_closed",
    "Kafka.Props.C79_close_fails",
    "Kafka.Props.C79_fails"
   ],
   "note": "False of the code: a connection that is closed in order prints an error (C79_closed; C79_close_fails: even if nothing else has happened; C79_fails). C79_exact: what is printed is, in every execution, the error with which reading ended and \"short buffer\" for every frame too short for a correlation id, and nothing else; C79_partial: so nothing before that."
  },
  {
   "property": "C80",
   "status": "partial",
   "theorems": [
    "Kafka.Props.C80_partial",
    "Kafka.Props.C80_never",
    "Kafka.Props.C80_fails",
    "Kafka.Props.C80_unread",
    "Kafka.Props.C80_never_inTime"
   ],
   "note": "False of the code: Do waits for a reply to every request (C80_fails, for all sizes), and a Produce with Acks 0 waits for ever unless its request cannot be written (C80_never, in the schedules of C25). C80_partial: requests that have a reply, as in C65. C80_unread, C80_never_inTime: the same in every schedule of a call with whose id no frame is read, and in all in which each byte of the ring buffer is read in time."
  },
  {
   "property": "C81",
   "status": "partial",
   "theorems": [
    "Kafka.Props.C81_leader_blind",
    "Kafka.Props.C81_coordinator_blind",
    "Kafka.Props.C81_leader_fails",
    "Kafka.Props.C81_coordinator_fails",
    "Kafka.Props.C81_leader_partial"
   ],
   "note": "False of the code: the error codes in the replies are not looked at (C81_leader_blind, C81_coordinator_blind: replies that differ in codes only have the same effect; C81_leader_fails, C81_coordinator_fails). C81_leader_partial: when the topic or the partition is missing, or the leader is not among the brokers, there is an error, but not with the code."
  },
  {
   "property": "C82",
   "status": "partial",
   "theorems": [
    "Kafka.Props.C82_partial",
    "Kafka.Props.C82_begun_partial",
    "Kafka.Props.C82_fails"
   ],
   "note": "False of the code: NewClient keeps the slices it is passed, so a caller that stores in them redirects operations (C82_fails). C82_partial: when the caller leaves them alone, operations at once do what each does alone; C82_begun_partial: also those that have not ended."
  },
  {
   "property": "C83",
   "status": "partial",
   "theorems": [
    "Kafka.Props.C83_only",
    "Kafka.Props.C83_leaks",
    "Kafka.Props.C83_partial",
    "Kafka.Props.C83_fails",
    "Kafka.Props.C83_leaks_always"
   ],
   "note": "False of the code, for all sizes (C83_fails): readLoop ends, and nothing else. C83_only: in every execution only a call of Close ends messageLoop and closes the network connection; C83_leaks_always: in all schedules messageLoop comes to wait for ever (C83_leaks: those of C25). C83_partial: once Close is called everything ends."
  },
  {
   "property": "C84",
   "status": "partial",
   "theorems": [
    "Kafka.Props.C84_model",
    "Kafka.Props.C84_noPanic",
    "Kafka.Props.C84_zero",
    "Kafka.Props.C84_panics",
    "Kafka.Props.C84_less",
    "Kafka.Props.C84_exact",
    "Kafka.Props.C84_partial",
    "Kafka.Props.C84_fails",
    "Kafka.Props.C84_large_fails"
   ],
   "note": "False of the code for size 0 and for sizes above 2^31 (C84_fails, C84_large_fails): positions are int32. C84_exact: true exactly of the sizes from 1 to 2^31; C84_panics, C84_less: what happens with the others. C84_model: up to 2^31 the buffer with positions in int32 has the executions of the model with natural numbers."
  },
  {
   "property": "C85",
   "status": "partial",
   "theorems": [
    "Kafka.Props.C85_partial",
    "Kafka.Props.C85_plain_partial",
    "Kafka.Props.C85_encodeDo",
    "Kafka.Props.C85_encode",
    "Kafka.Props.C85_decodeDo",
    "Kafka.Props.C85_decode",
    "Kafka.Props.C85_decodeClose",
    "Kafka.Props.C85_encode_fails",
    "Kafka.Props.C85_decodeDo_example",
    "Kafka.Props.C85_decodeClose_example",
    "Kafka.Props.C85_decode_fails",
    "Kafka.Props.C85_example"
   ],
   "note": "False of the code (C85_encode_fails, C85_decode_fails, at every size). C85_partial: Close and calls with a reply return if no decode uses the connection; requests are sent if no encode does, or if they only call Close. In the other cases the calls are stuck for ever in every execution: C85_encode, C85_encodeDo, C85_decode, C85_decodeDo, C85_decodeClose."
  },
  {
   "property": "C86",
   "status": "partial",
   "theorems": [
    "Kafka.Props.C86_quiet",
    "Kafka.Props.C86_steps",
    "Kafka.Props.C86_partial",
    "Kafka.Props.C86_rounds",
    "Kafka.Props.C86_rest",
    "Kafka.Props.C86_unbounded",
    "Kafka.Props.C86_fails"
   ],
   "note": "False of the code (C86_fails, C86_unbounded: with 8 bytes received messageLoop, woken for nothing, reads all cells of the ring buffer as frames). C86_partial: at most 23 steps per byte, 7 per Read and 100 in the schedules in which each byte is read in time. C86_steps: steps per byte read, in all schedules. C86_rounds, C86_rest: in all schedules messageLoop goes round the ring buffer at most once per step of readLoop, so both come to rest; C86_quiet: they do in all infinite executions. Missing: a bound that does not grow with the ring buffer in the other schedules."
  },
  {
   "property": "C87",
   "status": "proved",
   "theorems": [
    "Kafka.Props.C87_all",
    "Kafka.Props.C87_counts",
    "Kafka.Props.C87_steps",
    "Kafka.Props.C87_ok",
    "Kafka.Props.C87_reply_counts",
    "Kafka.Props.C87_reply",
    "Kafka.Props.C87_bomb",
    "Kafka.Props.C87_tight"
   ],
   "note": "C87_steps (all message types), C87_reply (all methods); C87_counts, C87_reply_counts: counting aside it is Decode; C87_ok: two per byte of the message when it is decoded; C87_tight: the bound is met. What make does to the memory it returns is not counted (that is C64)."
  },
  {
   "property": "C88",
   "status": "proved",
   "theorems": [
    "Kafka.Props.C88_writes",
    "Kafka.Props.C88_one",
    "Kafka.Props.C88_none",
    "Kafka.Props.C88_total",
    "Kafka.Props.C88_request"
   ],
   "note": "C88_writes (all functions and networks), C88_one (exactly one up to 4096 bytes), C88_none, C88_total (all requests of a connection), C88_request (the methods of Broker). bufio.Writer is modelled from the standard library of Go 1.13 (Verif/Message/Bufio.lean)."
  },
  {
   "property": "C89",
   "status": "partial",
   "theorems": [
    "Kafka.Props.C89_part_partial",
    "Kafka.Props.C89_part_messages",
    "Kafka.Props.C89_part_deleted",
    "Kafka.Props.C89_exact",
    "Kafka.Props.C89_same",
    "Kafka.Props.C89_whole",
    "Kafka.Props.C89_unanswered",
    "Kafka.Props.C89_cut_partial",
    "Kafka.Props.C89_messages",
    "Kafka.Props.C89_all",
    "Kafka.Props.C89_cut_whole",
    "Kafka.Props.C89_items",
    "Kafka.Props.C89_fails",
    "Kafka.Props.C89_deleted",
    "Kafka.Props.C89_heartbeat"
   ],
   "note": "False as stated (C89_fails): what has been decoded before the error is in the response, and arrays have their full length, zeros standing for what has not come; C89_exact: the claim holds exactly of the three methods whose response is one number (UpdateMetadata, Heartbeat and LeaveGroup at version 0); C89_deleted: in a reply to DeleteTopics that is cut off all topics not yet read have no error. C89_cut_partial: with a reply cut off at any byte exactly what is there whole comes with the error, and zeros (C89_messages: of all 218 message types; C89_items, C89_cut_whole on the specification); C89_unanswered: nothing if the connection fails; C89_whole, C89_same: without an error the response is the one that was sent. C89_part_partial, C89_part_messages: with any bytes at all, the response is a beginning of each response that the reply can be the beginning of, and zeros (C89_part_deleted for DeleteTopics). Missing: which beginning, for replies that are not the beginning of a proper one, and replies that nothing can be put behind (C91)."
  },
  {
   "property": "C90",
   "status": "proved",
   "theorems": [
    "Kafka.Props.C90_more",
    "Kafka.Props.C90_panic",
    "Kafka.Props.C90_fewer",
    "Kafka.Props.C90_error",
    "Kafka.Props.C90_method"
   ],
   "note": "C90_more, C90_panic (more bytes), C90_fewer, C90_error (fewer bytes), of all 218 message types; C90_method of the methods of Broker."
  },
  {
   "property": "C91",
   "status": "partial",
   "theorems": [
    "Kafka.Props.C91_missing",
    "Kafka.Props.C91_zeros",
    "Kafka.Props.C91_response_partial",
    "Kafka.Props.C91_immune",
    "Kafka.Props.C91_fails",
    "Kafka.Props.C91_exact",
    "Kafka.Props.C91_list"
   ],
   "note": "False as stated (C91_fails): of a reply to SaslAuthenticate of which the first byte of a length has come that makes it negative, any continuation panics. C91_missing: the error is the one of missing data, and bytes are missing. C91_zeros, C91_response_partial: with 2^38 zeros behind, any bytes are decoded or make Decode panic; C91_exact, C91_list: the claim holds exactly of the methods that no reply can make panic."
  },
  {
   "property": "C92",
   "status": "partial",
   "theorems": [
    "Kafka.Props.C92_partial",
    "Kafka.Props.C92_other",
    "Kafka.Props.C92_coordinator",
    "Kafka.Props.C92_delete",
    "Kafka.Props.C92_create",
    "Kafka.Props.C92_fails"
   ],
   "note": "False of the code: the length of a string is written modulo 65536 and nothing is refused (C92_fails). C92_partial: proved for requests that are messages of the protocol; C92_other: no other request is read as what was asked for, so each is rejected by the broker or taken for another. C92_coordinator: for any key of a group or transaction there is one such that to ask for its coordinator is to ask for that of the first; C92_delete: for any topics there is a name such that to delete it is to delete those; C92_create: the same of topics to create, with their configurations, and no byte left over."
  },
  {
   "property": "C93",
   "status": "partial",
   "theorems": [
    "Kafka.Props.C93_partial",
    "Kafka.Props.C93_size",
    "Kafka.Props.C93_exact",
    "Kafka.Props.C93_again",
    "Kafka.Props.C93_settled",
    "Kafka.Props.C93_same",
    "Kafka.Props.C93_fails",
    "Kafka.Props.C93_fails_null",
    "Kafka.Props.C93_same_fails",
    "Kafka.Props.C93_reply",
    "Kafka.Props.C93_request"
   ],
   "note": "False as stated (C93_fails, C93_fails_null): a null string is written as an empty one, a negative number of structures as 0, and a bool that is neither 0 nor 1 as false. C93_partial: as many bytes, differing only where a zero is written, and the lengths are representable; C93_size: Size is the number of bytes read; C93_exact: the bytes are the same exactly if Encode writes them for some message; C93_again, C93_settled: what is written is read again and from then on written unchanged; C93_same: the message read again is the same if the bytes were the same, and need not be otherwise (C93_same_fails: nil has become empty). C93_reply, C93_request: the replies and requests of the protocol in which nothing is null are written as they were."
  },
  {
   "property": "C94",
   "status": "partial",
   "theorems": [
    "Kafka.Props.C94_partial",
    "Kafka.Props.C94_returned",
    "Kafka.Props.C94_flexible_fails",
    "Kafka.Props.C94_nil_fails",
    "Kafka.Props.C94_fails",
    "Kafka.Props.C94_flexible_never",
    "Kafka.Props.C94_exact"
   ],
   "note": "False as stated: at flexible versions (C94_flexible_fails, all 24 of them) and for nil slices of scalars where the protocol has no null (C94_nil_fails). C94_partial: true otherwise, for all APIs, versions, ids and replies; C94_returned: a method of this client returns the reply at every version. C94_flexible_never: at flexible versions no reply at all is written as the protocol says; C94_exact: exactly when."
  },
  {
   "property": "C95",
   "status": "partial",
   "theorems": [
    "Kafka.Props.C95_null_panics",
    "Kafka.Props.C95_exact",
    "Kafka.Props.C95_partial",
    "Kafka.Props.C95_cut",
    "Kafka.Props.C95_flexible_fails",
    "Kafka.Props.C95_commit_fails",
    "Kafka.Props.C95_null_fails",
    "Kafka.Props.C95_fails"
   ],
   "note": "False as stated: at flexible versions (C95_flexible_fails, all 24 of them), for OffsetCommit version 1 (C95_commit_fails) and null byte strings, on which Decode panics (C95_null_fails). C95_partial: true otherwise; C95_cut: a request cut anywhere is an error. C95_exact: at versions that are not flexible null byte strings are exactly what is missing (OffsetCommit version 1 apart), and they always panic (C95_null_panics)."
  },
  {
   "property": "C96",
   "status": "partial",
   "theorems": [
    "Kafka.Props.C96_partial",
    "Kafka.Props.C96_returns",
    "Kafka.Props.C96_short",
    "Kafka.Props.C96_panics",
    "Kafka.Props.C96_crash_bytes",
    "Kafka.Props.C96_immune",
    "Kafka.Props.C96_body_immune",
    "Kafka.Props.C96_body_immune_list",
    "Kafka.Props.C96_commit_fails",
    "Kafka.Props.C96_fails",
    "Kafka.Props.C96_all",
    "Kafka.Props.C96_flexible",
    "Kafka.Props.C96_immune_all"
   ],
   "note": "False of OffsetCommit version 1, which the code reads without the timestamp (C96_fails, C96_commit_fails: a cut request is accepted). C96_partial: true of all else; C96_returns, C96_short and C96_panics: exactly when; C96_immune and C96_body_immune_list: which requests cannot crash their reader; C96_all, C96_flexible and C96_immune_all: the same at all versions and for OffsetCommit, with the schemas as the package has them."
  }
 ]
}