# The table of claims; read by gen_manifest.py.
claim("C01", Q, "c01_iff_partial c01_sent_partial c01_valid_packstream_partial c01_marshal_partial c01_false",
      "Exact: an accepted value is sent as an encoding of itself if and only if it contains no uint above 2^63-1 and no user structure whose signature is not a byte (c01_iff_partial); with them, what is sent is the value with those numbers reduced by 2^64 and signatures taken modulo 256 (c01_sent_partial). The full property is false: Marshal accepts uint(2^63), which has no PackStream encoding.")
claim("C02", Q, "c02_iff_partial c02_int_value_partial c02_false",
      "All ten integer types and all values; exact condition: below 2^63 (c02_iff_partial). The rest, uint above 2^63-1, is sent as value-2^64 (c02_false).")
claim("C03", P, "c03_shortest", "No PackStream encoding of the value, however nested, is shorter.")
claim("C04", Q, "c04_iff_partial c04_round_trip_partial c04_false",
      "For accepted values whose strings have at most 65535 bytes the round trip holds if and only if the value is one C01 covers and no size anywhere is in 128-255, 32768-65535 or above 2^31-1 (c04_iff_partial). Longer strings are C06. False otherwise: strings of 128-255 bytes make Unmarshal panic.")
claim("C05", Q, "c05_iff_partial c05_sent_partial c05_collide_partial c05_read_back_partial c05_unambiguous_partial c05_false",
      "Exact condition, the same as for C01 (c05_iff_partial); without it the reader finds the replaced value, and two payloads collide only if the replaced values are the same (c05_sent_partial, c05_collide_partial). False: uint(2^64-1) and int(-1) have the same payload.")
claim("C06", Q, "c06_framed_iff_partial c06_c07_framed_partial c06_small_partial c06_false",
      "Exact condition proved (bytes left in the buffer at the end of the message at most 65535). False for strings of 131066 bytes and more.")
claim("C07", Q, "c07_iff_partial c06_c07_framed_partial c07_calls_partial c07_false",
      "Exact condition for every chunk size (c07_iff_partial): the bytes left in the buffer at the end of the message are at most the chunk size. Implied by chunk sizes from 8 on and no string longer than the chunk size; false otherwise.")
claim("C08", P, "c08_rejects_iff c08_unsupported_reported", "Exact characterisation of the accepted values.")
claim("C09", Q, "c09_iff_partial c09_stream_untouched_partial c09_only_whole_chunks_partial c09_false",
      "Exact: nothing is sent if and only if the bytes written before the rejection are fewer than the chunk size (c09_iff_partial). False in general: chunks preceding the unsupported part have been sent.")
claim("C10", P, "c10_failed_write_reported", "Every value, chunk size and failure point.")
claim("C11", P, "c11_fragmentation", "Readers that return non-empty reads and then an error.")
claim("C12", P, "c12_one_message", "Any chunking, any splitting, any continuation, malformed payloads included.")
claim("C13", P, "c13_truncated_stream", "Any cut point, any final error.")
claim("C14", Q, "c14_iff_partial c14_stream_iff_partial c14_no_panic_partial c14_decode_partial c14_safe_partial c14_false",
      "Exact: a payload panics if and only if, read from its beginning, it comes to a string or list with the top bit of its size set, or to a field that should be an integer or a list of integers and is not (Chokes). False for that reason.")
claim("C15", P, "c15_terminates c15_reader_terminates c15_bounded c15_announced_size",
      "Memory is the subject of C84.")
claim("C16", Q, "c16_iff_partial c16_cut_payload_partial c16_false",
      "Exact for encodings whose size fields have their top bit clear (C17): a cut payload is accepted if and only if the missing bytes belong to the text of the string the value ends with, and is then delivered with that text shortened (c16_iff_partial). False for that reason.")
claim("C17", Q, "c17_iff_partial c17_conforming_understood_partial c17_message_partial c17_false_string c17_false_map",
      "Exact for values whose maps do not repeat keys: the encoding is decoded to its value if and only if its size fields have their top bit clear (c17_iff_partial). False otherwise: sizes are read as signed integers.")
claim("C18", Q, "c18_iff_partial c18_node_partial c18_relationship_partial c18_unbound_partial c18_path_partial c18_false",
      "Exact for nodes and relationships without repeated keys, in any conforming encoding: received if and only if every size field has its top bit clear (c18_iff_partial). Paths: restricted like C17. False otherwise: a relationship type of 200 bytes makes the decoder panic.")
claim("C19", Q, "c19_last_wins_partial c19_false", "All entry lists and repetitions; restricted like C17. False otherwise: a map of 128 to 255 entries is delivered empty.")
claim("C20", Q, "c20_execNeo_partial wrapped_partial c20_false",
      "Any database, query, parameters and outcome; messages the encoder does not deliver (C01, C02, C06, C09) are excluded by Sendable. False without that: uint(2^64-1) is answered as -1. Calls with such parameters are proved to do what they do with the negative number.")
claim("C21", Q, "c21_queryNeoAll_partial wrapped_partial c21_false", "Same restriction and same exception as C20.")
claim("C22", Q, "c22_prepared_partial wrapped_partial c22_false", "Any number of rounds, each stopped anywhere; same restriction and same exception as C20.")
claim("C23", Q, "c23_query_partial c23_pipeline_partial c23_prepared_partial c22_prepared_partial wrapped_partial c23_false c23_pipeline_false", "Same restriction as C20. False when one of the remaining responses is a failure: Close discards exactly the remaining responses and reports the failure, but leaves the statement open, and the next query is refused.")
claim("C24", Q, "c24_execPipeline_partial wrapped_partial c24_false", "Same restriction and same exception as C20.")
claim("C25", Q, "c25_queryPipeline_partial c25_prepared_partial wrapped_partial c25_false", "Same restriction and same exception as C20.")
claim("C26", Q, "c26_end_partial c26_eof_false",
      "False: at the end of the last query NextPipeline returns nil for everything, the error included. What it does return is proved.")
claim("C27", Q, "c27_execPipeline_partial c27_queryNeo_partial c27_statement_partial c27_begin_partial c78_calls c27_queryNeoAll_false",
      "False for QueryNeoAll when the failure comes while streaming: the statement stays open. Proved for the other calls.")
claim("C28", Q, "c28_execNeo_partial c28_queryNeoAll_partial c28_rows_partial c28_false", "Same restriction as C20. False when the acknowledgement itself is not answered: the error is then that of the acknowledgement.")
claim("C29", Q, "c29_one_open_partial c29_prepare_opens c29_query_opens c29_stQuery_opens c29_queryPipe_opens c29_stQueryPipe_opens c29_rows_false",
      "Any peer, every reachable state: while a statement is open every other opening call is refused and sends nothing. False for rows a Commit has detached: the statement is released while the rows stay open.")
claim("C30", P, "c30_closed", "Any peer, every reachable state, every later sequence of calls that return.")
claim("C31", P, "c31_rows c31_statement c31_with_rows", "Any peer, every history.")
claim("C32", P, "c32_finished", "Any peer, every history.")
claim("C33", Q, "c33_commit_partial c33_rollback_partial c33_idle_calls_partial c33_confirmed_partial c33_idle_partial c33_false",
      "Any peer: nil is returned only after two SUCCESS answers, and on a connection in step these answer COMMIT. False when a direct query's rows are still open: the answers read belong to the earlier query.")
claim("C34", Q, "c34_recorded_partial c34_never_recorded c34_begin_again c34_false",
      "False: Begin never records the transaction on the connection. The check itself is proved to work for a recorded transaction.")
claim("C35", Q, "c35_recorded_partial c35_nothing_sent c35_false",
      "False for the same reason as C34: Close sends nothing. Proved for a transaction recorded on the connection.")
claim("C36", Q, "c36_prepared_partial c36_pipeline_partial c36_read_partial c36_false",
      "Proved for rows of prepared queries and pipelines read to any position and for direct rows read to the end. False for direct rows that are still open.")
claim("C37", Q, "c37_acknowledged_partial c37_false",
      "False for every query that breaks off: Close waits for a message that does not come and the connection stays occupied. Proved that the failure itself is acknowledged.")
claim("C38", Q, "c38_past_end_partial c38_false", "False: the call waits until the read times out. It then returns an error and sends nothing.")
claim("C39", Q, "c39_prepared_partial c39_refused_false c39_count_false",
      "False for QueryPipeline of a connection, by server refusal and by parameter count. Proved for prepared pipelines.")
claim("C40", P, "c40_statement c40_conn", "Any peer, any state, all lengths.")
claim("C41", Q, "c41_conn_partial c41_statement_partial c41_next_partial c41_false",
      "Single queries that fit one chunk: any peer, any state. False for a pipeline whose later query is rejected.")
claim("C42", Q, "c42_history_partial c42_false",
      "All finite histories on any database, up to the first call in one of the situations in which C36, C37, C38 or C41 fail.")
claim("C43", Q, "c43_breaks_surface_partial c43_queryAll_partial c43_queryAll_false c43_undecodable",
      "Every call but QueryNeoAll, any peer, any reachable state. False for QueryNeoAll: a message whose decoding fails with io.EOF ends the result silently.")
claim("C63", Q, "c63_exec_partial c63_query_false", "Proved for ExecPipeline. False for QueryPipeline, which waits for an answer to nothing.")
claim("C64", Q, "c64_next_partial c64_all_partial c64_next_end_partial c64_all_end_partial c64_false",
      "Any peer and state. False when a message that is neither record nor summary fails to decode with io.EOF: the result ends silently.")
claim("C44", Q, "c44_init_partial c44_open_partial c44_returned_partial c44_agreed_partial c44_c66_total c44_example c44_false",
      "Any bytes from the server in any split. False as stated: the handshake looks at one read, so a single byte 0 passes as an agreed version.")
claim("C45", Q, "c45_one_read_partial c45_no_reply c45_false",
      "Proved when the first read delivers the four bytes. False for shorter reads: two zero bytes are accepted, and the rest of a split version is taken for the answer to INIT.")
claim("C46", Q, "c46_init_partial c46_open_partial c46_false",
      "Proved for user names and passwords up to 65535 bytes. False from 131071 bytes on, where chunking breaks the message.")
claim("C47", Q, "c47_accepts_partial c47_config_partial c47_refused c47_dialled c47_tls c47_false",
      "From the parsed URL on (url.Parse is not modelled). False for timeouts of more than 2^63 ns: they wrap to a negative duration.")
claim("C66", Q, "c44_c66_total c66_false", "Any server bytes on which decoding does not panic (C14). False otherwise: the socket stays open.")
claim("C48", Q, "Pooling.c48_max_partial Pooling.c48_c49_false Pooling.c48_c49_server_false Pooling.use_refused",
      "Any number of clients in any order of steps, with recovered panics, when connections are closed once. False when a client closes twice, and when the server refuses RESET: the driver closes the connection itself and the client closes it again.")
claim("C49", Q, "Pooling.c49_exclusive_partial Pooling.c48_c49_false Pooling.c48_c49_server_false Pooling.use_refused", "As C48.")
claim("C50", Q, "Pooling.c50_never_blocks_partial Pooling.c50_slots_partial Pooling.c50_slot_false Pooling.c50_block_false",
      "Proved when connections are closed once; that no slot is lost, also without panics (C104). False when closing the statement fails (the slot is lost) and after the driver closed the connection itself (Close blocks).")
claim("C51", Q, "Pooling.c51_initialised_partial Pooling.c51_open_partial Pooling.c51_false Pooling.init_noVersion",
      "All clients, all orders, when every failed initialisation records its error. The socket is one the driver has not closed, when connections are closed once (c51_open_partial). False when the server supports no version: the socket is put into the pool.")
claim("C52", Q, "Pooling.c52_replaced_partial c52_recorded c69_unbroken Pooling.c52_false Pooling.use_eof",
      "Proved for errors recorded in connErr; every failed read and write is recorded there (c52_recorded, any peer, any calls), and the next user of a pooled connection never gets one on which a read or write has failed (c69_unbroken, any number of users). False when the server closes the connection: io.EOF is not recorded and the dead socket is handed out again.")
claim("C53", P, "Pooling.c53_closed", "All clients, all servers, all orders of steps.")
claim("C54", Q, "Pooling.c54_closed_partial Pooling.c54_false Pooling.init_strange",
      "All clients and orders when no initialisation fails or panics after dialling; Close of the pool may have panicked before. False otherwise: the socket of a failed initialisation stays open.")
claim("C55", Q, "Pooling.c55_returns_partial Pooling.c55_zero_false Pooling.c55_server_false Pooling.init_refused",
      "Termination and absence of deadlock for a positive maximum when connections are closed once and nothing panics (for panics see C104). False for a maximum of 0 and when the server refuses INIT, ACK_FAILURE and RESET.")
claim("C56", Q, "c56_iff_partial c56_rows_affected_partial c56_panics c56_false_type c56_false_sum c56_last_insert_id",
      "With int64 counts the exact sum is returned if and only if it is an int64, else it is taken modulo 2^64 (c56_iff_partial); panics exactly for a count of another type (c56_panics). False otherwise: another type panics, a larger sum wraps around.")
claim("C57", P, "c57_columns", "All metadata. That the metadata of a rows object is the header sent by the server is part of C29 and C42.")
claim("C58", Q, "c58_iff_partial c58_merged_partial c58_marshalled_partial c58_rejected_partial c58_false",
      "All argument lists; exactly which are merged, rejected or panic (c58_iff_partial). False for the bytes of a value that is not a map: the call panics.")
claim("C59", P, "c59_innermost c59_chain", "All errors, all depths.")
claim("C60", Q, "Recording.c60_replays_partial Recording.c60_false_byte Recording.c60_false_short Recording.c60_false_error Recording.c60_after_error_partial",
      "All sessions of complete transfers of at least two bytes. False for one byte (panics), short reads (merged) and errors (the recording cannot be loaded).")
claim("C61", Q, "c61_next_partial c61_false_dest c61_false_message decoded_received c61_complete c61_iff_partial",
      "Any peer and row of values that survive marshalling (C04). False for rows longer than the destination (panics) and rows holding message structures (error).")
claim("C62", P, "Logging.c62_prints Logging.c62_unknown", "All sequences of calls. Fatal and Panic are outside the levels: they always print and do not return.")
claim("C65", Q, "c65_panics_partial c65_example c65_false_server c65_false_order c65_false_recursion",
      "Any peer whose messages do not make the decoder panic, every reachable state and call: the only panics are those of QueryNeo/QueryNeoAll after failure handling closed the connection, and of calls on rows whose statement was closed under them. Both happen; Close can recurse without bound.")
claim("C67", Q, "c67_returns_partial c67_bound c67_all c67_false",
      "Every peer that sends finitely many messages, every state and call. False for a server that answers everything with FAILURE: Close recurses without end.")
claim("C68", P, "decoded_received", "All byte sequences.")
claim("C69", Q, "c69_clean c69_unbroken c69_users_partial c69_false_rows c69_false_transaction",
      "Any peer: no statement or transaction is open on the driver's side, and no read or write of the socket has failed. Honest server: each user sees what a new connection would show when nothing but prepared statements and their rows is left open. False for rows of a direct query (the next user reads them) and for open transactions (Begin never stores them).")
claim("C70", P, "c70_exec c70_stmtExec c70_execPipeline c70_stmtExecPipeline c70_query c70_stmtQuery c70_queryPipeline c70_stmtQueryPipeline c70_begin c70_queryAll",
      "Any peer, any state; any handling of failures, except QueryNeoAll, which is for the driver's own Close at every depth. QueryNeo of a statement writes RUN only. For pipelines of queries only the first answer is confirmed when the call returns. What closing the rows of QueryNeoAll receives is not restricted.")
claim("C71", Q, "c71_statements_partial c71_rows_partial c71_false c71_tx_false Pooling.c71_socket_false",
      "Any peer, any calls before: statements handed out before the Close refuse every call that opens something; calls on their rows, and Close of rows and statements, touch neither socket nor log. False for the connection, which stays usable and writes to a socket another user may have, and for a transaction, whose Commit is still sent.")
claim("C72", P, "ErrorText.c72_text ErrorText.c72_layout", "All chains, all messages. fmt formatting and the content of stack traces are parameters.")
claim("C73", Q, "c73_merged_partial c73_rejected_partial c73_panics_partial c73_false",
      "Any peer, any state, all arguments: maps are merged, the first argument that is none decides whether the call is rejected or panics. False for bytes that hold another value: the call panics (c73_panics_partial).")
claim("C74", Q, "c74_nil_partial c74_open_partial c74_false c74_open_false c74_false_panics",
      "The pipeline calls, any peer, any state. False for Prepare, Query, QueryNeo, Open and OpenNeo: with an error they return an interface holding a nil pointer, and Close of such rows panics.")
claim("C75", P, "c75_transient c75_success_is_complete c75_same_encoder",
      "All values, chunk sizes and patterns of failure. c75_same_encoder: over a stream that stays broken this is the encoder of the other properties.")
claim("C76", Q, "c76_stream_partial c76_false",
      "Any peer, any calls, a network that stays broken, messages up to 65535 bytes that the encoder delivers, or rejects before its buffer is full. False when the network recovers: the driver goes on behind the cut off message, and the server executes a query nobody issued.")
claim("C77", Q, "c77_silent_partial c77_false",
      "When the peer stays silent no later call returns a result, a row or success of a transaction. False when the answers come late: the next ExecNeo returns the summary of the previous query.")
claim("C78", P, "c78_call c78_calls c78_init", "Any peer, any state, any calls and opening a connection, also when the call panics; with the deferred calls that run then: c103_handled (C103).")
claim("C79", P, "c79_reported", "Any peer, any state, any call; the errors of the decoder are assumed not to be FAILURE themselves, which they never are.")
claim("C80", Q, "c80_accepts_partial c80_strict_partial c80_false",
  "`c80_accepts_partial` is an equivalence: it says exactly which streams yield which values, by a grammar that is PackStream with three relaxations. c80_false shows that all of them occur, and that bytes after the value are ignored.")
claim("C81", Q, "c81_surfaces_partial c81_only c81_false c81_reset_false c81_queryAll_false c81_write",
  "Except for QueryNeoAll and calls during which the server refused RESET, both shown to be needed. False when the server closes the connection: the innermost error is then io.EOF.")
claim("C82", Q, "c82_reuse_partial c82_leftover c82_false",
  "Any values, chunk sizes and streams, as long as every call but the last succeeds. c82_leftover says what happens after a value was rejected: the part encoded before the rejection becomes the beginning of the next message. c82_false: after `[1, chan]` was rejected, Encode(2) sends the list [1, 2].")
claim("C83", P, "c83_separate c83_in_order_partial c83_connection",
  "Any framed messages, malformed ones included, any split into non-empty reads. c83_in_order_partial adds the Encoder on the other side, within the limits of C04.")
claim("C84", Q, "c84_announced c84_same c84_decoded_partial c84_worst c84_false",
  "Payloads that are decoded: less than two elements per byte. Any payload: 2^31 elements per byte. False: 5 bytes make the decoder ask for a slice of 2^31-1 elements before it looks for the first, and this nests. Strings are not counted; they are copies of bytes received.")
claim("C85", Q, "c85_together_partial c85_false",
  "Readers whose calls return bytes, the last possibly with the error. False for a call that returns neither bytes nor an error inside the data of a chunk: Decode fails.")
claim("C86", Q, "c86_heard c86_prompt_partial c86_silent_partial c86_zero c86_drip c86_false",
  "One answer, any schedule: it is read as from the stream heard in time, at most the timeout after the last bytes that came. False in total: the deadline is set anew for every read, so a server sending single bytes keeps the call waiting for any multiple of the timeout. A timeout of 0, which the connection string allows, fails every read. Writes are not timed.")
claim("C87", Q, "c87_first c87_refused_partial c87_false",
  "Any stream, split and failure. False for a refusal that arrives in pieces: the credentials are sent.")
claim("C88", Q, "c88_closed_partial c88_only c88_false",
  "Any peer and call, states without open rows of a prepared statement; the converse in all states. False when such rows are open: closing has to empty them first, which fails, and the connection stays open for good.")
claim("C89", Q, "c89_header_partial c89_lost c89_false",
  "False: what is returned is the header of the next query (any peer, any state). The summaries cannot be had at all: servers that differ in nothing else give a client walking the pipeline the same results.")
claim("C90", Q, "c90_between c90_within_partial c90_unmarshal_partial c90_false",
  "Any framed message, cut anywhere, read in any pieces: which innermost error is returned is proved for every place. False: only half a length gives io.ErrUnexpectedEOF; a message cut in its data or between chunks gives io.EOF like the end of the stream.")
claim("C91", Q, "c91_bool c91_int c91_uint64 c91_float c91_string_partial c91_bools_partial c91_strings_partial c91_false",
  "All values of these types; for strings and slices the exact condition is given. False for encodings of more than one chunk (65535 bytes): there the expectation of the test is wrong, not the encoder.")
claim("C92", Q, "c92_partial c92_metadata c92_decoder c92_honest_partial c92_case c92_strange_false c92_garbled_false c92_close_false",
  "Every peer, state and call, with the exceptions listed exactly. The metadata of a FAILURE can always be got at in the documented way. False for: driver.ErrBadConn after a strange answer to ACK_FAILURE or RESET (conn.go:428-433, 465-470 return it bare), integers and floats cut short (decoder.go:131-152 return the bare error of binary.Read), and Close when closing the socket fails. Errors of converting arguments for database/sql are not covered.")
claim("C93", P, "Examples.c93_quick Examples.c93_slow Examples.c93_comments Examples.c93_refused c93_programs",
  "Any database with answers of that shape, any chunk size from 1 to 65535. The programs are modelled from the opened connection on, their lines as values without the formatting. quick_n_dirty ignores errors and panics when its first query is refused.")
claim("C94", Q, "Recording.c94_departs_partial Recording.c94_more_partial Recording.c94_false Recording.c94_false_session",
  "Every session of complete transfers of at least two bytes. False for what is written: only its length is looked at, so a program that sends another query of the same length passes.")
claim("C95", Q, "c95_exec_partial c95_query_partial c95_failure_partial c95_definite c95_false",
  "Every database and list of queries that succeed, parameters that can be sent (C41) and stand for one PackStream map (all without float32). With a failure the ways agree up to it; after it the queries made one by one go on, those of a pipeline do not.")
claim("C96", Q, "c96_call_partial c96_walk_partial c96_error c96_false",
  "Any peer, any state, any number of calls. The one exception, given exactly: NextPipeline tolerates io.EOF when it reads the header of the next query (rows.go:269), and the decoder returns a bare io.EOF beside an empty SuccessMessage for a SUCCESS that breaks off inside a number, so such a header is taken for an empty one.")
claim("C97", Q, "Pooling.c97_sockets_partial Pooling.c97_false",
  "Any number of clients, closing once what they hold, without panics. Open sockets of connections without a recorded error are at most max. False in general: a connection on which an error was recorded is replaced when it is closed (driver.go:179-183) and its socket stays open, so that a pool of one can have any number of sockets open while nobody holds a connection.")
claim("C98", Q, "Pooling.c98_close_partial Pooling.c98_false",
  "Any clients and environment: with the lock, Close needs nobody else to return or to panic; without, it waits exactly while another call holds it. False: OpenPool waits for a connection with the lock held (driver.go:128-131), and Close of the pool with it. Requests to the server for open statements and transactions are one step.")
claim("C99", Q, "Pooling.c99_retry_partial Pooling.c99_false",
  "Any clients, any failures of sockets. False when closing a statement or rolling back fails every time: Close never gets to the connections behind.")
claim("C100", Q, "Race.c100_race_partial Race.c100_first_partial Race.c100_last_partial Race.c100_panic_false Race.c100_error_false Race.c100_client_false",
  "All schedules of the accesses of both calls to the fields of the connection, one after the other (the Go memory model promises less for such races). False: Close of the connection reads poolDriver twice and panics when the pool sets it to nil in between; and both may close the socket, so that one of them, possibly Close of the pool, returns an error.")
claim("C101", Q, "Logging.c101_dump_partial Logging.c101_read_partial Logging.c101_write_partial Logging.c101_read_false Logging.c101_write_false",
  "All buffers and counts: the dump can be read back, and two transfers with the same line are the same transfer. False: a Read dumps its whole buffer, also what was not read (conn.go:329), and a Write prints its two numbers in the wrong order, so that a partial write of 3 out of 10 bytes is logged as 10 of 3 (conn.go:349).")
claim("C102", Q, "Logging.c102_same Logging.c102_password_partial Logging.c102_false",
  "Every URL, user, server and pair of passwords of at most 65535 bytes, however values and errors are printed, on a network whose writes succeed. False at trace level, where everything written is dumped. The functions of the opening with their log are proved to do what those without do.")
claim("C103", Q, "c103_same c103_handled c103_next_partial c103_all_partial c103_exec_false c103_twice_false",
  "Model/Deferred runs the deferred calls also after a panic; without a panic it is proved to be the model used elsewhere. FAILUREs are acknowledged in any history with recovered panics. QueryNeoAll reads the rest of the answer before the panic goes on; NextNeo skips the record. False: ExecNeo leaves the rest of the answer in the stream and the next call takes it for its own; with two such records QueryNeoAll leaves its statement open for good.")
claim("C104", Q, "Pooling.c104_lock Pooling.c104_slots_partial Pooling.c104_false Pooling.c104_close_false Pooling.init_panics Pooling.close_panics",
  "Any clients in any order of steps. The lock is always given back. Each panic in OpenPool costs one slot exactly; after as many as the pool has slots the next OpenPool waits for ever, with the lock, for any maximum. A panic in Close of the pool leaves the pool open. That both panics happen is proved from the session model.")
claim("C105", Q, "c105_driver c105_again c105_once_partial c105_case",
  "Model/Retry is sql.DB, from the documentation of driver.ErrBadConn; trusted. Proved for any peers: the driver is called at most three times, and again only after a call in which the server answered FAILURE and then ACK_FAILURE or RESET with a message it must not send. Missing: execution exactly once is proved with an honest server, on an idle connection, for DB.Exec with map arguments here, for DB.Query in C109, for transactions in C108 and for prepared statements in C110.")
claim("C106", Q, "c106_partial c106_false c106_restart_false c106_kept_false mute_gone",
  "False: errors of the network reach database/sql wrapped, so it never recognises driver.ErrBadConn. Once the idle connection is lost, every DB.Exec, DB.Query and DB.Begin fails, however many, and no connection is opened, also when the server would accept one. Proved: when the driver does return driver.ErrBadConn itself, a new connection takes over.")
claim("C107", Q, "c107_partial c107_false",
  "False: DB.Prepare gives the connection back with the statement open on it, and every call that gets the connection next fails without anything being sent. Proved: closing the statement restores the connection.")
claim("C108", Q, "c108_transaction_partial c108_false",
  "Any database, any statements with map arguments, COMMIT or ROLLBACK, on an idle connection of sql.DB. The commands executed are exactly BEGIN, the statements in order, and the end; each caller is told its own result. False with a query whose rows are not closed before Commit: COMMIT is executed and Commit returns an error, and the connection goes back with answers unread, so that the next DB.Exec of a statement the database refuses succeeds. This assumes a database/sql whose Tx.Commit calls the driver without closing open rows; we believe that of the numbered Go versions in .travis.yml, but its source is not here to check, and versions that close rows first are not modelled. Missing: Tx.Query, Tx.Prepare, messages the encoder does not deliver.")
claim("C109", Q, "c109_rows_partial c109_false",
  "Any database, any statement with map arguments, any number of records read, on an idle connection of sql.DB. The statement is executed once; the user finds the records in order; a refusal or a failure after some records is reported; with a refusal or a summary the connection is idle again, also when the rows are left early. False when the answer breaks off: the driver's Rows.Close fails, with an error that is not driver.ErrBadConn, the connection goes back with its statement open, and every later call of sql.DB on it fails, however many; nothing is sent and no connection is opened. Missing: records that do not have as many values as there are columns, values outside Storable (C61), messages the encoder does not deliver, Rows.Scan.")
claim("C110", Q, "c110_partial c110_false",
  "Any database, any statement, any list of executions by sql.Stmt.Query and sql.Stmt.Exec with map arguments, rows read as far as the user likes, then sql.Stmt.Close, on an idle connection. Every execution reaches the database once and in order, each tells its own records, summary or failure, and the connection is idle afterwards. Missing: answers of Query that break off: there it is false, Rows.Close and sql.Stmt.Close fail and later calls on the connection fail.")
