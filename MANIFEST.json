{
 "claims": [
  {
   "property": "C01",
   "status": "partial",
   "theorems": [
    "Bolt.c01_iff_partial",
    "Bolt.c01_sent_partial",
    "Bolt.c01_valid_packstream_partial",
    "Bolt.c01_marshal_partial",
    "Bolt.c01_false"
   ],
   "note": "Exact: an accepted value is sent as an encoding of itself if and only if it contains no uint above 2^63-1 and no user structure whose signature is not a byte (c01_iff_partial); with them, what is sent is the value with those numbers reduced by 2^64 and signatures taken modulo 256 (c01_sent_partial). The full property is false: Marshal accepts uint(2^63), which has no PackStream encoding."
  },
  {
   "property": "C02",
   "status": "partial",
   "theorems": [
    "Bolt.c02_iff_partial",
    "Bolt.c02_int_value_partial",
    "Bolt.c02_false"
   ],
   "note": "All ten integer types and all values; exact condition: below 2^63 (c02_iff_partial). The rest, uint above 2^63-1, is sent as value-2^64 (c02_false)."
  },
  {
   "property": "C03",
   "status": "proved",
   "theorems": [
    "Bolt.c03_shortest"
   ],
   "note": "No PackStream encoding of the value, however nested, is shorter."
  },
  {
   "property": "C04",
   "status": "partial",
   "theorems": [
    "Bolt.c04_iff_partial",
    "Bolt.c04_round_trip_partial",
    "Bolt.c04_false"
   ],
   "note": "For accepted values whose strings have at most 65535 bytes the round trip holds if and only if the value is one C01 covers and no size anywhere is in 128-255, 32768-65535 or above 2^31-1 (c04_iff_partial). Longer strings are C06. False otherwise: strings of 128-255 bytes make Unmarshal panic."
  },
  {
   "property": "C05",
   "status": "partial",
   "theorems": [
    "Bolt.c05_iff_partial",
    "Bolt.c05_sent_partial",
    "Bolt.c05_collide_partial",
    "Bolt.c05_read_back_partial",
    "Bolt.c05_unambiguous_partial",
    "Bolt.c05_false"
   ],
   "note": "Exact condition, the same as for C01 (c05_iff_partial); without it the reader finds the replaced value, and two payloads collide only if the replaced values are the same (c05_sent_partial, c05_collide_partial). False: uint(2^64-1) and int(-1) have the same payload."
  },
  {
   "property": "C06",
   "status": "partial",
   "theorems": [
    "Bolt.c06_framed_iff_partial",
    "Bolt.c06_c07_framed_partial",
    "Bolt.c06_small_partial",
    "Bolt.c06_false"
   ],
   "note": "Exact condition proved (bytes left in the buffer at the end of the message at most 65535). False for strings of 131066 bytes and more."
  },
  {
   "property": "C07",
   "status": "partial",
   "theorems": [
    "Bolt.c07_iff_partial",
    "Bolt.c06_c07_framed_partial",
    "Bolt.c07_calls_partial",
    "Bolt.c07_false"
   ],
   "note": "Exact condition for every chunk size (c07_iff_partial): the bytes left in the buffer at the end of the message are at most the chunk size. Implied by chunk sizes from 8 on and no string longer than the chunk size; false otherwise."
  },
  {
   "property": "C08",
   "status": "proved",
   "theorems": [
    "Bolt.c08_rejects_iff",
    "Bolt.c08_unsupported_reported"
   ],
   "note": "Exact characterisation of the accepted values."
  },
  {
   "property": "C09",
   "status": "partial",
   "theorems": [
    "Bolt.c09_iff_partial",
    "Bolt.c09_stream_untouched_partial",
    "Bolt.c09_only_whole_chunks_partial",
    "Bolt.c09_false"
   ],
   "note": "Exact: nothing is sent if and only if the bytes written before the rejection are fewer than the chunk size (c09_iff_partial). False in general: chunks preceding the unsupported part have been sent."
  },
  {
   "property": "C10",
   "status": "proved",
   "theorems": [
    "Bolt.c10_failed_write_reported"
   ],
   "note": "Every value, chunk size and failure point."
  },
  {
   "property": "C100",
   "status": "partial",
   "theorems": [
    "Bolt.Race.c100_race_partial",
    "Bolt.Race.c100_first_partial",
    "Bolt.Race.c100_last_partial",
    "Bolt.Race.c100_panic_false",
    "Bolt.Race.c100_error_false",
    "Bolt.Race.c100_client_false"
   ],
   "note": "All schedules of the accesses of both calls to the fields of the connection, one after the other (the Go memory model promises less for such races). False: Close of the connection reads poolDriver twice and panics when the pool sets it to nil in between; and both may close the socket, so that one of them, possibly Close of the pool, returns an error."
  },
  {
   "property": "C101",
   "status": "partial",
   "theorems": [
    "Bolt.Logging.c101_dump_partial",
    "Bolt.Logging.c101_read_partial",
    "Bolt.Logging.c101_write_partial",
    "Bolt.Logging.c101_read_false",
    "Bolt.Logging.c101_write_false"
   ],
   "note": "All buffers and counts: the dump can be read back, and two transfers with the same line are the same transfer. False: a Read dumps its whole buffer, also what was not read (conn.go:329), and a Write prints its two numbers in the wrong order, so that a partial write of 3 out of 10 bytes is logged as 10 of 3 (conn.go:349)."
  },
  {
   "property": "C102",
   "status": "partial",
   "theorems": [
    "Bolt.Logging.c102_same",
    "Bolt.Logging.c102_password_partial",
    "Bolt.Logging.c102_false"
   ],
   "note": "Every URL, user, server and pair of passwords of at most 65535 bytes, however values and errors are printed, on a network whose writes succeed. False at trace level, where everything written is dumped. The functions of the opening with their log are proved to do what those without do."
  },
  {
   "property": "C103",
   "status": "partial",
   "theorems": [
    "Bolt.c103_same",
    "Bolt.c103_handled",
    "Bolt.c103_next_partial",
    "Bolt.c103_all_partial",
    "Bolt.c103_exec_false",
    "Bolt.c103_twice_false"
   ],
   "note": "Model/Deferred runs the deferred calls also after a panic; without a panic it is proved to be the model used elsewhere. FAILUREs are acknowledged in any history with recovered panics. QueryNeoAll reads the rest of the answer before the panic goes on; NextNeo skips the record. False: ExecNeo leaves the rest of the answer in the stream and the next call takes it for its own; with two such records QueryNeoAll leaves its statement open for good."
  },
  {
   "property": "C104",
   "status": "partial",
   "theorems": [
    "Bolt.Pooling.c104_lock",
    "Bolt.Pooling.c104_slots_partial",
    "Bolt.Pooling.c104_false",
    "Bolt.Pooling.c104_close_false",
    "Bolt.Pooling.init_panics",
    "Bolt.Pooling.close_panics"
   ],
   "note": "Any clients in any order of steps. The lock is always given back. Each panic in OpenPool costs one slot exactly; after as many as the pool has slots the next OpenPool waits for ever, with the lock, for any maximum. A panic in Close of the pool leaves the pool open. That both panics happen is proved from the session model."
  },
  {
   "property": "C105",
   "status": "partial",
   "theorems": [
    "Bolt.c105_driver",
    "Bolt.c105_again",
    "Bolt.c105_once_partial",
    "Bolt.c105_case"
   ],
   "note": "Model/Retry is sql.DB, from the documentation of driver.ErrBadConn; trusted. Proved for any peers: the driver is called at most three times, and again only after a call in which the server answered FAILURE and then ACK_FAILURE or RESET with a message it must not send. Missing: execution exactly once is proved with an honest server, on an idle connection, for DB.Exec with map arguments here, for DB.Query in C109, for transactions in C108 and for prepared statements in C110."
  },
  {
   "property": "C106",
   "status": "partial",
   "theorems": [
    "Bolt.c106_partial",
    "Bolt.c106_false",
    "Bolt.c106_restart_false",
    "Bolt.c106_kept_false",
    "Bolt.mute_gone"
   ],
   "note": "False: errors of the network reach database/sql wrapped, so it never recognises driver.ErrBadConn. Once the idle connection is lost, every DB.Exec, DB.Query and DB.Begin fails, however many, and no connection is opened, also when the server would accept one. Proved: when the driver does return driver.ErrBadConn itself, a new connection takes over."
  },
  {
   "property": "C107",
   "status": "partial",
   "theorems": [
    "Bolt.c107_partial",
    "Bolt.c107_false"
   ],
   "note": "False: DB.Prepare gives the connection back with the statement open on it, and every call that gets the connection next fails without anything being sent. Proved: closing the statement restores the connection."
  },
  {
   "property": "C108",
   "status": "partial",
   "theorems": [
    "Bolt.c108_transaction_partial",
    "Bolt.c108_false"
   ],
   "note": "Any database, any statements with map arguments, COMMIT or ROLLBACK, on an idle connection of sql.DB. The commands executed are exactly BEGIN, the statements in order, and the end; each caller is told its own result. False with a query whose rows are not closed before Commit: COMMIT is executed and Commit returns an error, and the connection goes back with answers unread, so that the next DB.Exec of a statement the database refuses succeeds. This assumes a database/sql whose Tx.Commit calls the driver without closing open rows; we believe that of the numbered Go versions in .travis.yml, but its source is not here to check, and versions that close rows first are not modelled. Missing: Tx.Query, Tx.Prepare, messages the encoder does not deliver."
  },
  {
   "property": "C109",
   "status": "partial",
   "theorems": [
    "Bolt.c109_rows_partial",
    "Bolt.c109_false"
   ],
   "note": "Any database, any statement with map arguments, any number of records read, on an idle connection of sql.DB. The statement is executed once; the user finds the records in order; a refusal or a failure after some records is reported; with a refusal or a summary the connection is idle again, also when the rows are left early. False when the answer breaks off: the driver's Rows.Close fails, with an error that is not driver.ErrBadConn, the connection goes back with its statement open, and every later call of sql.DB on it fails, however many; nothing is sent and no connection is opened. Missing: records that do not have as many values as there are columns, values outside Storable (C61), messages the encoder does not deliver, Rows.Scan."
  },
  {
   "property": "C11",
   "status": "proved",
   "theorems": [
    "Bolt.c11_fragmentation"
   ],
   "note": "Readers that return non-empty reads and then an error."
  },
  {
   "property": "C110",
   "status": "partial",
   "theorems": [
    "Bolt.c110_partial",
    "Bolt.c110_false"
   ],
   "note": "Any database, any statement, any list of executions by sql.Stmt.Query and sql.Stmt.Exec with map arguments, rows read as far as the user likes, then sql.Stmt.Close, on an idle connection. Every execution reaches the database once and in order, each tells its own records, summary or failure, and the connection is idle afterwards. Missing: answers of Query that break off: there it is false, Rows.Close and sql.Stmt.Close fail and later calls on the connection fail."
  },
  {
   "property": "C12",
   "status": "proved",
   "theorems": [
    "Bolt.c12_one_message"
   ],
   "note": "Any chunking, any splitting, any continuation, malformed payloads included."
  },
  {
   "property": "C13",
   "status": "proved",
   "theorems": [
    "Bolt.c13_truncated_stream"
   ],
   "note": "Any cut point, any final error."
  },
  {
   "property": "C14",
   "status": "partial",
   "theorems": [
    "Bolt.c14_iff_partial",
    "Bolt.c14_stream_iff_partial",
    "Bolt.c14_no_panic_partial",
    "Bolt.c14_decode_partial",
    "Bolt.c14_safe_partial",
    "Bolt.c14_false"
   ],
   "note": "Exact: a payload panics if and only if, read from its beginning, it comes to a string or list with the top bit of its size set, or to a field that should be an integer or a list of integers and is not (Chokes). False for that reason."
  },
  {
   "property": "C15",
   "status": "proved",
   "theorems": [
    "Bolt.c15_terminates",
    "Bolt.c15_reader_terminates",
    "Bolt.c15_bounded",
    "Bolt.c15_announced_size"
   ],
   "note": "Memory is the subject of C84."
  },
  {
   "property": "C16",
   "status": "partial",
   "theorems": [
    "Bolt.c16_iff_partial",
    "Bolt.c16_cut_payload_partial",
    "Bolt.c16_false"
   ],
   "note": "Exact for encodings whose size fields have their top bit clear (C17): a cut payload is accepted if and only if the missing bytes belong to the text of the string the value ends with, and is then delivered with that text shortened (c16_iff_partial). False for that reason."
  },
  {
   "property": "C17",
   "status": "partial",
   "theorems": [
    "Bolt.c17_iff_partial",
    "Bolt.c17_conforming_understood_partial",
    "Bolt.c17_message_partial",
    "Bolt.c17_false_string",
    "Bolt.c17_false_map"
   ],
   "note": "Exact for values whose maps do not repeat keys: the encoding is decoded to its value if and only if its size fields have their top bit clear (c17_iff_partial). False otherwise: sizes are read as signed integers."
  },
  {
   "property": "C18",
   "status": "partial",
   "theorems": [
    "Bolt.c18_iff_partial",
    "Bolt.c18_node_partial",
    "Bolt.c18_relationship_partial",
    "Bolt.c18_unbound_partial",
    "Bolt.c18_path_partial",
    "Bolt.c18_false"
   ],
   "note": "Exact for nodes and relationships without repeated keys, in any conforming encoding: received if and only if every size field has its top bit clear (c18_iff_partial). Paths: restricted like C17. False otherwise: a relationship type of 200 bytes makes the decoder panic."
  },
  {
   "property": "C19",
   "status": "partial",
   "theorems": [
    "Bolt.c19_last_wins_partial",
    "Bolt.c19_false"
   ],
   "note": "All entry lists and repetitions; restricted like C17. False otherwise: a map of 128 to 255 entries is delivered empty."
  },
  {
   "property": "C20",
   "status": "partial",
   "theorems": [
    "Bolt.c20_execNeo_partial",
    "Bolt.wrapped_partial",
    "Bolt.c20_false"
   ],
   "note": "Any database, query, parameters and outcome; messages the encoder does not deliver (C01, C02, C06, C09) are excluded by Sendable. False without that: uint(2^64-1) is answered as -1. Calls with such parameters are proved to do what they do with the negative number."
  },
  {
   "property": "C21",
   "status": "partial",
   "theorems": [
    "Bolt.c21_queryNeoAll_partial",
    "Bolt.wrapped_partial",
    "Bolt.c21_false"
   ],
   "note": "Same restriction and same exception as C20."
  },
  {
   "property": "C22",
   "status": "partial",
   "theorems": [
    "Bolt.c22_prepared_partial",
    "Bolt.wrapped_partial",
    "Bolt.c22_false"
   ],
   "note": "Any number of rounds, each stopped anywhere; same restriction and same exception as C20."
  },
  {
   "property": "C23",
   "status": "partial",
   "theorems": [
    "Bolt.c23_query_partial",
    "Bolt.c23_pipeline_partial",
    "Bolt.c23_prepared_partial",
    "Bolt.c22_prepared_partial",
    "Bolt.wrapped_partial",
    "Bolt.c23_false",
    "Bolt.c23_pipeline_false"
   ],
   "note": "Same restriction as C20. False when one of the remaining responses is a failure: Close discards exactly the remaining responses and reports the failure, but leaves the statement open, and the next query is refused."
  },
  {
   "property": "C24",
   "status": "partial",
   "theorems": [
    "Bolt.c24_execPipeline_partial",
    "Bolt.wrapped_partial",
    "Bolt.c24_false"
   ],
   "note": "Same restriction and same exception as C20."
  },
  {
   "property": "C25",
   "status": "partial",
   "theorems": [
    "Bolt.c25_queryPipeline_partial",
    "Bolt.c25_prepared_partial",
    "Bolt.wrapped_partial",
    "Bolt.c25_false"
   ],
   "note": "Same restriction and same exception as C20."
  },
  {
   "property": "C26",
   "status": "partial",
   "theorems": [
    "Bolt.c26_end_partial",
    "Bolt.c26_eof_false"
   ],
   "note": "False: at the end of the last query NextPipeline returns nil for everything, the error included. What it does return is proved."
  },
  {
   "property": "C27",
   "status": "partial",
   "theorems": [
    "Bolt.c27_execPipeline_partial",
    "Bolt.c27_queryNeo_partial",
    "Bolt.c27_statement_partial",
    "Bolt.c27_begin_partial",
    "Bolt.c78_calls",
    "Bolt.c27_queryNeoAll_false"
   ],
   "note": "False for QueryNeoAll when the failure comes while streaming: the statement stays open. Proved for the other calls."
  },
  {
   "property": "C28",
   "status": "partial",
   "theorems": [
    "Bolt.c28_execNeo_partial",
    "Bolt.c28_queryNeoAll_partial",
    "Bolt.c28_rows_partial",
    "Bolt.c28_false"
   ],
   "note": "Same restriction as C20. False when the acknowledgement itself is not answered: the error is then that of the acknowledgement."
  },
  {
   "property": "C29",
   "status": "partial",
   "theorems": [
    "Bolt.c29_one_open_partial",
    "Bolt.c29_prepare_opens",
    "Bolt.c29_query_opens",
    "Bolt.c29_stQuery_opens",
    "Bolt.c29_queryPipe_opens",
    "Bolt.c29_stQueryPipe_opens",
    "Bolt.c29_rows_false"
   ],
   "note": "Any peer, every reachable state: while a statement is open every other opening call is refused and sends nothing. False for rows a Commit has detached: the statement is released while the rows stay open."
  },
  {
   "property": "C30",
   "status": "proved",
   "theorems": [
    "Bolt.c30_closed"
   ],
   "note": "Any peer, every reachable state, every later sequence of calls that return."
  },
  {
   "property": "C31",
   "status": "proved",
   "theorems": [
    "Bolt.c31_rows",
    "Bolt.c31_statement",
    "Bolt.c31_with_rows"
   ],
   "note": "Any peer, every history."
  },
  {
   "property": "C32",
   "status": "proved",
   "theorems": [
    "Bolt.c32_finished"
   ],
   "note": "Any peer, every history."
  },
  {
   "property": "C33",
   "status": "partial",
   "theorems": [
    "Bolt.c33_commit_partial",
    "Bolt.c33_rollback_partial",
    "Bolt.c33_idle_calls_partial",
    "Bolt.c33_confirmed_partial",
    "Bolt.c33_idle_partial",
    "Bolt.c33_false"
   ],
   "note": "Any peer: nil is returned only after two SUCCESS answers, and on a connection in step these answer COMMIT. False when a direct query's rows are still open: the answers read belong to the earlier query."
  },
  {
   "property": "C34",
   "status": "partial",
   "theorems": [
    "Bolt.c34_recorded_partial",
    "Bolt.c34_never_recorded",
    "Bolt.c34_begin_again",
    "Bolt.c34_false"
   ],
   "note": "False: Begin never records the transaction on the connection. The check itself is proved to work for a recorded transaction."
  },
  {
   "property": "C35",
   "status": "partial",
   "theorems": [
    "Bolt.c35_recorded_partial",
    "Bolt.c35_nothing_sent",
    "Bolt.c35_false"
   ],
   "note": "False for the same reason as C34: Close sends nothing. Proved for a transaction recorded on the connection."
  },
  {
   "property": "C36",
   "status": "partial",
   "theorems": [
    "Bolt.c36_prepared_partial",
    "Bolt.c36_pipeline_partial",
    "Bolt.c36_read_partial",
    "Bolt.c36_false"
   ],
   "note": "Proved for rows of prepared queries and pipelines read to any position and for direct rows read to the end. False for direct rows that are still open."
  },
  {
   "property": "C37",
   "status": "partial",
   "theorems": [
    "Bolt.c37_acknowledged_partial",
    "Bolt.c37_false"
   ],
   "note": "False for every query that breaks off: Close waits for a message that does not come and the connection stays occupied. Proved that the failure itself is acknowledged."
  },
  {
   "property": "C38",
   "status": "partial",
   "theorems": [
    "Bolt.c38_past_end_partial",
    "Bolt.c38_false"
   ],
   "note": "False: the call waits until the read times out. It then returns an error and sends nothing."
  },
  {
   "property": "C39",
   "status": "partial",
   "theorems": [
    "Bolt.c39_prepared_partial",
    "Bolt.c39_refused_false",
    "Bolt.c39_count_false"
   ],
   "note": "False for QueryPipeline of a connection, by server refusal and by parameter count. Proved for prepared pipelines."
  },
  {
   "property": "C40",
   "status": "proved",
   "theorems": [
    "Bolt.c40_statement",
    "Bolt.c40_conn"
   ],
   "note": "Any peer, any state, all lengths."
  },
  {
   "property": "C41",
   "status": "partial",
   "theorems": [
    "Bolt.c41_conn_partial",
    "Bolt.c41_statement_partial",
    "Bolt.c41_next_partial",
    "Bolt.c41_false"
   ],
   "note": "Single queries that fit one chunk: any peer, any state. False for a pipeline whose later query is rejected."
  },
  {
   "property": "C42",
   "status": "partial",
   "theorems": [
    "Bolt.c42_history_partial",
    "Bolt.c42_false"
   ],
   "note": "All finite histories on any database, up to the first call in one of the situations in which C36, C37, C38 or C41 fail."
  },
  {
   "property": "C43",
   "status": "partial",
   "theorems": [
    "Bolt.c43_breaks_surface_partial",
    "Bolt.c43_queryAll_partial",
    "Bolt.c43_queryAll_false",
    "Bolt.c43_undecodable"
   ],
   "note": "Every call but QueryNeoAll, any peer, any reachable state. False for QueryNeoAll: a message whose decoding fails with io.EOF ends the result silently."
  },
  {
   "property": "C44",
   "status": "partial",
   "theorems": [
    "Bolt.c44_init_partial",
    "Bolt.c44_open_partial",
    "Bolt.c44_returned_partial",
    "Bolt.c44_agreed_partial",
    "Bolt.c44_c66_total",
    "Bolt.c44_example",
    "Bolt.c44_false"
   ],
   "note": "Any bytes from the server in any split. False as stated: the handshake looks at one read, so a single byte 0 passes as an agreed version."
  },
  {
   "property": "C45",
   "status": "partial",
   "theorems": [
    "Bolt.c45_one_read_partial",
    "Bolt.c45_no_reply",
    "Bolt.c45_false"
   ],
   "note": "Proved when the first read delivers the four bytes. False for shorter reads: two zero bytes are accepted, and the rest of a split version is taken for the answer to INIT."
  },
  {
   "property": "C46",
   "status": "partial",
   "theorems": [
    "Bolt.c46_init_partial",
    "Bolt.c46_open_partial",
    "Bolt.c46_false"
   ],
   "note": "Proved for user names and passwords up to 65535 bytes. False from 131071 bytes on, where chunking breaks the message."
  },
  {
   "property": "C47",
   "status": "partial",
   "theorems": [
    "Bolt.c47_accepts_partial",
    "Bolt.c47_config_partial",
    "Bolt.c47_refused",
    "Bolt.c47_dialled",
    "Bolt.c47_tls",
    "Bolt.c47_false"
   ],
   "note": "From the parsed URL on (url.Parse is not modelled). False for timeouts of more than 2^63 ns: they wrap to a negative duration."
  },
  {
   "property": "C48",
   "status": "partial",
   "theorems": [
    "Bolt.Pooling.c48_max_partial",
    "Bolt.Pooling.c48_c49_false",
    "Bolt.Pooling.c48_c49_server_false",
    "Bolt.Pooling.use_refused"
   ],
   "note": "Any number of clients in any order of steps, with recovered panics, when connections are closed once. False when a client closes twice, and when the server refuses RESET: the driver closes the connection itself and the client closes it again."
  },
  {
   "property": "C49",
   "status": "partial",
   "theorems": [
    "Bolt.Pooling.c49_exclusive_partial",
    "Bolt.Pooling.c48_c49_false",
    "Bolt.Pooling.c48_c49_server_false",
    "Bolt.Pooling.use_refused"
   ],
   "note": "As C48."
  },
  {
   "property": "C50",
   "status": "partial",
   "theorems": [
    "Bolt.Pooling.c50_never_blocks_partial",
    "Bolt.Pooling.c50_slots_partial",
    "Bolt.Pooling.c50_slot_false",
    "Bolt.Pooling.c50_block_false"
   ],
   "note": "Proved when connections are closed once; that no slot is lost, also without panics (C104). False when closing the statement fails (the slot is lost) and after the driver closed the connection itself (Close blocks)."
  },
  {
   "property": "C51",
   "status": "partial",
   "theorems": [
    "Bolt.Pooling.c51_initialised_partial",
    "Bolt.Pooling.c51_open_partial",
    "Bolt.Pooling.c51_false",
    "Bolt.Pooling.init_noVersion"
   ],
   "note": "All clients, all orders, when every failed initialisation records its error. The socket is one the driver has not closed, when connections are closed once (c51_open_partial). False when the server supports no version: the socket is put into the pool."
  },
  {
   "property": "C52",
   "status": "partial",
   "theorems": [
    "Bolt.Pooling.c52_replaced_partial",
    "Bolt.c52_recorded",
    "Bolt.c69_unbroken",
    "Bolt.Pooling.c52_false",
    "Bolt.Pooling.use_eof"
   ],
   "note": "Proved for errors recorded in connErr; every failed read and write is recorded there (c52_recorded, any peer, any calls), and the next user of a pooled connection never gets one on which a read or write has failed (c69_unbroken, any number of users). False when the server closes the connection: io.EOF is not recorded and the dead socket is handed out again."
  },
  {
   "property": "C53",
   "status": "proved",
   "theorems": [
    "Bolt.Pooling.c53_closed"
   ],
   "note": "All clients, all servers, all orders of steps."
  },
  {
   "property": "C54",
   "status": "partial",
   "theorems": [
    "Bolt.Pooling.c54_closed_partial",
    "Bolt.Pooling.c54_false",
    "Bolt.Pooling.init_strange"
   ],
   "note": "All clients and orders when no initialisation fails or panics after dialling; Close of the pool may have panicked before. False otherwise: the socket of a failed initialisation stays open."
  },
  {
   "property": "C55",
   "status": "partial",
   "theorems": [
    "Bolt.Pooling.c55_returns_partial",
    "Bolt.Pooling.c55_zero_false",
    "Bolt.Pooling.c55_server_false",
    "Bolt.Pooling.init_refused"
   ],
   "note": "Termination and absence of deadlock for a positive maximum when connections are closed once and nothing panics (for panics see C104). False for a maximum of 0 and when the server refuses INIT, ACK_FAILURE and RESET."
  },
  {
   "property": "C56",
   "status": "partial",
   "theorems": [
    "Bolt.c56_iff_partial",
    "Bolt.c56_rows_affected_partial",
    "Bolt.c56_panics",
    "Bolt.c56_false_type",
    "Bolt.c56_false_sum",
    "Bolt.c56_last_insert_id"
   ],
   "note": "With int64 counts the exact sum is returned if and only if it is an int64, else it is taken modulo 2^64 (c56_iff_partial); panics exactly for a count of another type (c56_panics). False otherwise: another type panics, a larger sum wraps around."
  },
  {
   "property": "C57",
   "status": "proved",
   "theorems": [
    "Bolt.c57_columns"
   ],
   "note": "All metadata. That the metadata of a rows object is the header sent by the server is part of C29 and C42."
  },
  {
   "property": "C58",
   "status": "partial",
   "theorems": [
    "Bolt.c58_iff_partial",
    "Bolt.c58_merged_partial",
    "Bolt.c58_marshalled_partial",
    "Bolt.c58_rejected_partial",
    "Bolt.c58_false"
   ],
   "note": "All argument lists; exactly which are merged, rejected or panic (c58_iff_partial). False for the bytes of a value that is not a map: the call panics."
  },
  {
   "property": "C59",
   "status": "proved",
   "theorems": [
    "Bolt.c59_innermost",
    "Bolt.c59_chain"
   ],
   "note": "All errors, all depths."
  },
  {
   "property": "C60",
   "status": "partial",
   "theorems": [
    "Bolt.Recording.c60_replays_partial",
    "Bolt.Recording.c60_false_byte",
    "Bolt.Recording.c60_false_short",
    "Bolt.Recording.c60_false_error",
    "Bolt.Recording.c60_after_error_partial"
   ],
   "note": "All sessions of complete transfers of at least two bytes. False for one byte (panics), short reads (merged) and errors (the recording cannot be loaded)."
  },
  {
   "property": "C61",
   "status": "partial",
   "theorems": [
    "Bolt.c61_next_partial",
    "Bolt.c61_false_dest",
    "Bolt.c61_false_message",
    "Bolt.decoded_received",
    "Bolt.c61_complete",
    "Bolt.c61_iff_partial"
   ],
   "note": "Any peer and row of values that survive marshalling (C04). False for rows longer than the destination (panics) and rows holding message structures (error)."
  },
  {
   "property": "C62",
   "status": "proved",
   "theorems": [
    "Bolt.Logging.c62_prints",
    "Bolt.Logging.c62_unknown"
   ],
   "note": "All sequences of calls. Fatal and Panic are outside the levels: they always print and do not return."
  },
  {
   "property": "C63",
   "status": "partial",
   "theorems": [
    "Bolt.c63_exec_partial",
    "Bolt.c63_query_false"
   ],
   "note": "Proved for ExecPipeline. False for QueryPipeline, which waits for an answer to nothing."
  },
  {
   "property": "C64",
   "status": "partial",
   "theorems": [
    "Bolt.c64_next_partial",
    "Bolt.c64_all_partial",
    "Bolt.c64_next_end_partial",
    "Bolt.c64_all_end_partial",
    "Bolt.c64_false"
   ],
   "note": "Any peer and state. False when a message that is neither record nor summary fails to decode with io.EOF: the result ends silently."
  },
  {
   "property": "C65",
   "status": "partial",
   "theorems": [
    "Bolt.c65_panics_partial",
    "Bolt.c65_example",
    "Bolt.c65_false_server",
    "Bolt.c65_false_order",
    "Bolt.c65_false_recursion"
   ],
   "note": "Any peer whose messages do not make the decoder panic, every reachable state and call: the only panics are those of QueryNeo/QueryNeoAll after failure handling closed the connection, and of calls on rows whose statement was closed under them. Both happen; Close can recurse without bound."
  },
  {
   "property": "C66",
   "status": "partial",
   "theorems": [
    "Bolt.c44_c66_total",
    "Bolt.c66_false"
   ],
   "note": "Any server bytes on which decoding does not panic (C14). False otherwise: the socket stays open."
  },
  {
   "property": "C67",
   "status": "partial",
   "theorems": [
    "Bolt.c67_returns_partial",
    "Bolt.c67_bound",
    "Bolt.c67_all",
    "Bolt.c67_false"
   ],
   "note": "Every peer that sends finitely many messages, every state and call. False for a server that answers everything with FAILURE: Close recurses without end."
  },
  {
   "property": "C68",
   "status": "proved",
   "theorems": [
    "Bolt.decoded_received"
   ],
   "note": "All byte sequences."
  },
  {
   "property": "C69",
   "status": "partial",
   "theorems": [
    "Bolt.c69_clean",
    "Bolt.c69_unbroken",
    "Bolt.c69_users_partial",
    "Bolt.c69_false_rows",
    "Bolt.c69_false_transaction"
   ],
   "note": "Any peer: no statement or transaction is open on the driver's side, and no read or write of the socket has failed. Honest server: each user sees what a new connection would show when nothing but prepared statements and their rows is left open. False for rows of a direct query (the next user reads them) and for open transactions (Begin never stores them)."
  },
  {
   "property": "C70",
   "status": "proved",
   "theorems": [
    "Bolt.c70_exec",
    "Bolt.c70_stmtExec",
    "Bolt.c70_execPipeline",
    "Bolt.c70_stmtExecPipeline",
    "Bolt.c70_query",
    "Bolt.c70_stmtQuery",
    "Bolt.c70_queryPipeline",
    "Bolt.c70_stmtQueryPipeline",
    "Bolt.c70_begin",
    "Bolt.c70_queryAll"
   ],
   "note": "Any peer, any state; any handling of failures, except QueryNeoAll, which is for the driver's own Close at every depth. QueryNeo of a statement writes RUN only. For pipelines of queries only the first answer is confirmed when the call returns. What closing the rows of QueryNeoAll receives is not restricted."
  },
  {
   "property": "C71",
   "status": "partial",
   "theorems": [
    "Bolt.c71_statements_partial",
    "Bolt.c71_rows_partial",
    "Bolt.c71_false",
    "Bolt.c71_tx_false",
    "Bolt.Pooling.c71_socket_false"
   ],
   "note": "Any peer, any calls before: statements handed out before the Close refuse every call that opens something; calls on their rows, and Close of rows and statements, touch neither socket nor log. False for the connection, which stays usable and writes to a socket another user may have, and for a transaction, whose Commit is still sent."
  },
  {
   "property": "C72",
   "status": "proved",
   "theorems": [
    "Bolt.ErrorText.c72_text",
    "Bolt.ErrorText.c72_layout"
   ],
   "note": "All chains, all messages. fmt formatting and the content of stack traces are parameters."
  },
  {
   "property": "C73",
   "status": "partial",
   "theorems": [
    "Bolt.c73_merged_partial",
    "Bolt.c73_rejected_partial",
    "Bolt.c73_panics_partial",
    "Bolt.c73_false"
   ],
   "note": "Any peer, any state, all arguments: maps are merged, the first argument that is none decides whether the call is rejected or panics. False for bytes that hold another value: the call panics (c73_panics_partial)."
  },
  {
   "property": "C74",
   "status": "partial",
   "theorems": [
    "Bolt.c74_nil_partial",
    "Bolt.c74_open_partial",
    "Bolt.c74_false",
    "Bolt.c74_open_false",
    "Bolt.c74_false_panics"
   ],
   "note": "The pipeline calls, any peer, any state. False for Prepare, Query, QueryNeo, Open and OpenNeo: with an error they return an interface holding a nil pointer, and Close of such rows panics."
  },
  {
   "property": "C75",
   "status": "proved",
   "theorems": [
    "Bolt.c75_transient",
    "Bolt.c75_success_is_complete",
    "Bolt.c75_same_encoder"
   ],
   "note": "All values, chunk sizes and patterns of failure. c75_same_encoder: over a stream that stays broken this is the encoder of the other properties."
  },
  {
   "property": "C76",
   "status": "partial",
   "theorems": [
    "Bolt.c76_stream_partial",
    "Bolt.c76_false"
   ],
   "note": "Any peer, any calls, a network that stays broken, messages up to 65535 bytes that the encoder delivers, or rejects before its buffer is full. False when the network recovers: the driver goes on behind the cut off message, and the server executes a query nobody issued."
  },
  {
   "property": "C77",
   "status": "partial",
   "theorems": [
    "Bolt.c77_silent_partial",
    "Bolt.c77_false"
   ],
   "note": "When the peer stays silent no later call returns a result, a row or success of a transaction. False when the answers come late: the next ExecNeo returns the summary of the previous query."
  },
  {
   "property": "C78",
   "status": "proved",
   "theorems": [
    "Bolt.c78_call",
    "Bolt.c78_calls",
    "Bolt.c78_init"
   ],
   "note": "Any peer, any state, any calls and opening a connection, also when the call panics; with the deferred calls that run then: c103_handled (C103)."
  },
  {
   "property": "C79",
   "status": "proved",
   "theorems": [
    "Bolt.c79_reported"
   ],
   "note": "Any peer, any state, any call; the errors of the decoder are assumed not to be FAILURE themselves, which they never are."
  },
  {
   "property": "C80",
   "status": "partial",
   "theorems": [
    "Bolt.c80_accepts_partial",
    "Bolt.c80_strict_partial",
    "Bolt.c80_false"
   ],
   "note": "`c80_accepts_partial` is an equivalence: it says exactly which streams yield which values, by a grammar that is PackStream with three relaxations. c80_false shows that all of them occur, and that bytes after the value are ignored."
  },
  {
   "property": "C81",
   "status": "partial",
   "theorems": [
    "Bolt.c81_surfaces_partial",
    "Bolt.c81_only",
    "Bolt.c81_false",
    "Bolt.c81_reset_false",
    "Bolt.c81_queryAll_false",
    "Bolt.c81_write"
   ],
   "note": "Except for QueryNeoAll and calls during which the server refused RESET, both shown to be needed. False when the server closes the connection: the innermost error is then io.EOF."
  },
  {
   "property": "C82",
   "status": "partial",
   "theorems": [
    "Bolt.c82_reuse_partial",
    "Bolt.c82_leftover",
    "Bolt.c82_false"
   ],
   "note": "Any values, chunk sizes and streams, as long as every call but the last succeeds. c82_leftover says what happens after a value was rejected: the part encoded before the rejection becomes the beginning of the next message. c82_false: after `[1, chan]` was rejected, Encode(2) sends the list [1, 2]."
  },
  {
   "property": "C83",
   "status": "proved",
   "theorems": [
    "Bolt.c83_separate",
    "Bolt.c83_in_order_partial",
    "Bolt.c83_connection"
   ],
   "note": "Any framed messages, malformed ones included, any split into non-empty reads. c83_in_order_partial adds the Encoder on the other side, within the limits of C04."
  },
  {
   "property": "C84",
   "status": "partial",
   "theorems": [
    "Bolt.c84_announced",
    "Bolt.c84_same",
    "Bolt.c84_decoded_partial",
    "Bolt.c84_worst",
    "Bolt.c84_false"
   ],
   "note": "Payloads that are decoded: less than two elements per byte. Any payload: 2^31 elements per byte. False: 5 bytes make the decoder ask for a slice of 2^31-1 elements before it looks for the first, and this nests. Strings are not counted; they are copies of bytes received."
  },
  {
   "property": "C85",
   "status": "partial",
   "theorems": [
    "Bolt.c85_together_partial",
    "Bolt.c85_false"
   ],
   "note": "Readers whose calls return bytes, the last possibly with the error. False for a call that returns neither bytes nor an error inside the data of a chunk: Decode fails."
  },
  {
   "property": "C86",
   "status": "partial",
   "theorems": [
    "Bolt.c86_heard",
    "Bolt.c86_prompt_partial",
    "Bolt.c86_silent_partial",
    "Bolt.c86_zero",
    "Bolt.c86_drip",
    "Bolt.c86_false"
   ],
   "note": "One answer, any schedule: it is read as from the stream heard in time, at most the timeout after the last bytes that came. False in total: the deadline is set anew for every read, so a server sending single bytes keeps the call waiting for any multiple of the timeout. A timeout of 0, which the connection string allows, fails every read. Writes are not timed."
  },
  {
   "property": "C87",
   "status": "partial",
   "theorems": [
    "Bolt.c87_first",
    "Bolt.c87_refused_partial",
    "Bolt.c87_false"
   ],
   "note": "Any stream, split and failure. False for a refusal that arrives in pieces: the credentials are sent."
  },
  {
   "property": "C88",
   "status": "partial",
   "theorems": [
    "Bolt.c88_closed_partial",
    "Bolt.c88_only",
    "Bolt.c88_false"
   ],
   "note": "Any peer and call, states without open rows of a prepared statement; the converse in all states. False when such rows are open: closing has to empty them first, which fails, and the connection stays open for good."
  },
  {
   "property": "C89",
   "status": "partial",
   "theorems": [
    "Bolt.c89_header_partial",
    "Bolt.c89_lost",
    "Bolt.c89_false"
   ],
   "note": "False: what is returned is the header of the next query (any peer, any state). The summaries cannot be had at all: servers that differ in nothing else give a client walking the pipeline the same results."
  },
  {
   "property": "C90",
   "status": "partial",
   "theorems": [
    "Bolt.c90_between",
    "Bolt.c90_within_partial",
    "Bolt.c90_unmarshal_partial",
    "Bolt.c90_false"
   ],
   "note": "Any framed message, cut anywhere, read in any pieces: which innermost error is returned is proved for every place. False: only half a length gives io.ErrUnexpectedEOF; a message cut in its data or between chunks gives io.EOF like the end of the stream."
  },
  {
   "property": "C91",
   "status": "partial",
   "theorems": [
    "Bolt.c91_bool",
    "Bolt.c91_int",
    "Bolt.c91_uint64",
    "Bolt.c91_float",
    "Bolt.c91_string_partial",
    "Bolt.c91_bools_partial",
    "Bolt.c91_strings_partial",
    "Bolt.c91_false"
   ],
   "note": "All values of these types; for strings and slices the exact condition is given. False for encodings of more than one chunk (65535 bytes): there the expectation of the test is wrong, not the encoder."
  },
  {
   "property": "C92",
   "status": "partial",
   "theorems": [
    "Bolt.c92_partial",
    "Bolt.c92_metadata",
    "Bolt.c92_decoder",
    "Bolt.c92_honest_partial",
    "Bolt.c92_case",
    "Bolt.c92_strange_false",
    "Bolt.c92_garbled_false",
    "Bolt.c92_close_false"
   ],
   "note": "Every peer, state and call, with the exceptions listed exactly. The metadata of a FAILURE can always be got at in the documented way. False for: driver.ErrBadConn after a strange answer to ACK_FAILURE or RESET (conn.go:428-433, 465-470 return it bare), integers and floats cut short (decoder.go:131-152 return the bare error of binary.Read), and Close when closing the socket fails. Errors of converting arguments for database/sql are not covered."
  },
  {
   "property": "C93",
   "status": "proved",
   "theorems": [
    "Bolt.Examples.c93_quick",
    "Bolt.Examples.c93_slow",
    "Bolt.Examples.c93_comments",
    "Bolt.Examples.c93_refused",
    "Bolt.c93_programs"
   ],
   "note": "Any database with answers of that shape, any chunk size from 1 to 65535. The programs are modelled from the opened connection on, their lines as values without the formatting. quick_n_dirty ignores errors and panics when its first query is refused."
  },
  {
   "property": "C94",
   "status": "partial",
   "theorems": [
    "Bolt.Recording.c94_departs_partial",
    "Bolt.Recording.c94_more_partial",
    "Bolt.Recording.c94_false",
    "Bolt.Recording.c94_false_session"
   ],
   "note": "Every session of complete transfers of at least two bytes. False for what is written: only its length is looked at, so a program that sends another query of the same length passes."
  },
  {
   "property": "C95",
   "status": "partial",
   "theorems": [
    "Bolt.c95_exec_partial",
    "Bolt.c95_query_partial",
    "Bolt.c95_failure_partial",
    "Bolt.c95_definite",
    "Bolt.c95_false"
   ],
   "note": "Every database and list of queries that succeed, parameters that can be sent (C41) and stand for one PackStream map (all without float32). With a failure the ways agree up to it; after it the queries made one by one go on, those of a pipeline do not."
  },
  {
   "property": "C96",
   "status": "partial",
   "theorems": [
    "Bolt.c96_call_partial",
    "Bolt.c96_walk_partial",
    "Bolt.c96_error",
    "Bolt.c96_false"
   ],
   "note": "Any peer, any state, any number of calls. The one exception, given exactly: NextPipeline tolerates io.EOF when it reads the header of the next query (rows.go:269), and the decoder returns a bare io.EOF beside an empty SuccessMessage for a SUCCESS that breaks off inside a number, so such a header is taken for an empty one."
  },
  {
   "property": "C97",
   "status": "partial",
   "theorems": [
    "Bolt.Pooling.c97_sockets_partial",
    "Bolt.Pooling.c97_false"
   ],
   "note": "Any number of clients, closing once what they hold, without panics. Open sockets of connections without a recorded error are at most max. False in general: a connection on which an error was recorded is replaced when it is closed (driver.go:179-183) and its socket stays open, so that a pool of one can have any number of sockets open while nobody holds a connection."
  },
  {
   "property": "C98",
   "status": "partial",
   "theorems": [
    "Bolt.Pooling.c98_close_partial",
    "Bolt.Pooling.c98_false"
   ],
   "note": "Any clients and environment: with the lock, Close needs nobody else to return or to panic; without, it waits exactly while another call holds it. False: OpenPool waits for a connection with the lock held (driver.go:128-131), and Close of the pool with it. Requests to the server for open statements and transactions are one step."
  },
  {
   "property": "C99",
   "status": "partial",
   "theorems": [
    "Bolt.Pooling.c99_retry_partial",
    "Bolt.Pooling.c99_false"
   ],
   "note": "Any clients, any failures of sockets. False when closing a statement or rolling back fails every time: Close never gets to the connections behind."
  }
 ]
}